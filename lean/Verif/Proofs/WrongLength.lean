import Verif.Proofs.Keeps
import Verif.Proofs.Run

/-!
# Samples of the wrong length
-/

namespace Verif
open Py

variable {σ α β : Type} {F : Type}

/-- The call raised. -/
def Res.Fails (r : Res σ α) : Prop := ∃ e s, r = .err e s

/-- The method raises on every object satisfying `P`. -/
def FailsAt (P : σ → Prop) (x : Py σ α) : Prop := ∀ s, P s → (x s).Fails

theorem failsAt_raise {P : σ → Prop} (e : PyErr) : FailsAt P (Py.raise e : Py σ α) := fun s _ => ⟨e, s, rfl⟩

theorem failsAt_left {P : σ → Prop} {x : Py σ α} {f : α → Py σ β} (h : FailsAt P x) : FailsAt P (x >>= f) := by
  intro s hs
  obtain ⟨e, s', he⟩ := h s hs
  exact ⟨e, s', by rw [bind_apply, he]; rfl⟩

theorem failsAt_right {P : σ → Prop} {x : Py σ α} {f : α → Py σ β} (hx : Keeps P x) (h : ∀ a, FailsAt P (f a)) :
    FailsAt P (x >>= f) := by
  intro s hs
  have := hx s hs
  rw [bind_apply]
  cases hr : x s with
  | err e s' => exact ⟨e, s', rfl⟩
  | ok a s' => rw [hr] at this; exact h a s' this

theorem failsAt_get {P : σ → Prop} {f : σ → Py σ β} (h : ∀ s, P s → FailsAt P (f s)) : FailsAt P (Py.get >>= f) :=
  fun s hs => h s hs s hs

theorem failsAt_lift {P : σ → Prop} {x : Except PyErr α} {f : α → Py σ β} (h : ∀ a, x = .ok a → FailsAt P (f a)) :
    FailsAt P (Py.lift x >>= f) := by
  intro s hs
  cases x with
  | error e => exact ⟨e, s, rfl⟩
  | ok a => exact h a rfl s hs

theorem except_bind_inv {ε : Type} {x : Except ε α} {f : α → Except ε β} {b : β} (h : (x >>= f) = .ok b) :
    ∃ a, x = .ok a ∧ f a = .ok b := by
  cases x with
  | error e => cases h
  | ok a => exact ⟨a, rfl, h⟩

/-! ## Elementwise operations -/

theorem bin_err [Zero F] {f : F → F → F} {a b : Vec F} (h : a.length ≠ b.length) (h1 : a.length ≠ 1) (h2 : b.length ≠ 1) :
    Vec.bin f a b = .error .valueError := by rw [Vec.bin, if_neg h, if_neg h1, if_neg h2]

@[simp] theorem smul_length (c : XR) (a : Vec) : (Vec.smul c a).length = a.length := by simp [Vec.smul]

theorem runningMean_err {n : ℕ} {a b : Vec} (h : a.length ≠ b.length) (h1 : a.length ≠ 1) (h2 : b.length ≠ 1) :
    runningMean n a b = .error .valueError := bin_err (by simpa using h) (by simpa using h1) (by simpa using h2)

theorem runningMean_length {n : ℕ} {a b v : Vec} (h : runningMean n a b = .ok v) (hb : b.length ≠ a.length)
    (h1 : b.length ≠ 1) : v.length ≠ a.length ∧ v.length ≠ 1 := by
  by_cases ha : a.length = 1
  · rw [runningMean, Vec.add, Vec.bin, smul_length, smul_length, if_neg (Ne.symm hb), if_pos ha] at h
    cases h
    simp [h1, hb]
  · rw [runningMean_err (Ne.symm hb) ha h1] at h; cases h

/-! ## The centroid table -/

/-- The centroid table is `w`. -/
def VIs (w : Arr2 F) (s : Core F) : Prop := s.v = w

/-- Statements that do not assign `_v`. -/
macro "keeps_v" : tactic => `(tactic|
  repeat' first
    | with_reducible exact keeps_get
    | with_reducible exact keeps_lift _
    | with_reducible exact keeps_raise _
    | with_reducible exact keeps_pure _
    | exact keeps_modify fun _ h => h
    | with_reducible apply keeps_bind
    | with_reducible apply keeps_ite
    | intro _)

theorem v_incClusters {w : Arr2 F} : Keeps (VIs w) (incClusters (F := F)) := by unfold incClusters; keeps_v
theorem v_appendN {w : Arr2 F} (x : ℕ) : Keeps (VIs w) (appendN (F := F) x) := by unfold appendN; keeps_v
theorem v_appendCP {w : Arr2 F} (x : F) : Keeps (VIs w) (appendCP x) := by unfold appendCP; keeps_v
theorem v_appendS {w : Arr2 F} (x : F) : Keeps (VIs w) (DB.appendS x) := by unfold DB.appendS; keeps_v
theorem v_setN {w : Arr2 F} (i x : ℕ) : Keeps (VIs w) (setN (F := F) i x) := by unfold setN; keeps_v

theorem vstackV_fails {w : Arr2 F} {y : Vec F} (h : y.length ≠ w.cols) : FailsAt (VIs w) (vstackV y) := by
  refine failsAt_get fun s hs => failsAt_lift fun v hv => ?_
  rw [VIs] at hs
  rw [hs, Arr2.vstack, if_neg h] at hv
  cases hv

theorem setV_fails [Zero F] {w : Arr2 F} {y : Vec F} (i : ℕ) (h : y.length ≠ w.cols) (h1 : y.length ≠ 1) : FailsAt (VIs w) (setV i y) := by
  refine failsAt_get fun s hs => failsAt_lift fun v hv => ?_
  rw [VIs] at hs
  rw [hs, Arr2.setRow] at hv
  split at hv
  · rw [Vec.broadcastTo, if_neg h, if_neg h1] at hv
    cases hv
  · cases hv

/-- All rows of an array have the declared length. -/
def Arr2.Rect (a : Arr2 F) : Prop := ∀ r ∈ a.rows, r.length = a.cols

theorem row_length {a : Arr2 F} (h : a.Rect) {i : ℕ} {r : Vec F} (hr : a.row i = .ok r) : r.length = a.cols := by
  rw [Arr2.row] at hr
  split at hr
  · rename_i r' hr'
    cases hr
    exact h _ (List.mem_of_getElem? hr')
  · cases hr

theorem oldStats_length {s : Core} {y : Vec} {i : ℕ} {st : OldStats} (h : oldStats y i s = .ok st) (hr : s.v.Rect)
    (hy : y.length ≠ s.v.cols) (h1 : y.length ≠ 1) : st.vNew.length ≠ s.v.cols ∧ st.vNew.length ≠ 1 := by
  unfold oldStats at h
  obtain ⟨n, hn, h⟩ := except_bind_inv h
  obtain ⟨r, hrow, h⟩ := except_bind_inv h
  obtain ⟨v, hv, h⟩ := except_bind_inv h
  have hl := row_length hr hrow
  have key := runningMean_length hv (by rwa [hl]) h1
  rw [hl] at key
  obtain ⟨_, _, h⟩ := except_bind_inv h
  obtain ⟨_, _, h⟩ := except_bind_inv h
  obtain ⟨_, _, h⟩ := except_bind_inv h
  obtain ⟨_, _, h⟩ := except_bind_inv h
  obtain ⟨_, _, h⟩ := except_bind_inv h
  obtain ⟨_, _, h⟩ := except_bind_inv h
  obtain ⟨_, _, h⟩ := except_bind_inv h
  obtain ⟨_, _, h⟩ := except_bind_inv h
  cases h
  exact key

theorem failsAt_after {P Q : σ → Prop} {x : Py σ α} {f : α → Py σ β} (hx : ∀ s, Q s → P (x s).state)
    (h : ∀ a, FailsAt P (f a)) : FailsAt Q (x >>= f) := by
  intro s hs
  have := hx s hs
  rw [bind_apply]
  cases hr : x s with
  | err e s' => exact ⟨e, s', rfl⟩
  | ok a s' => rw [hr] at this; exact h a s' this

/-- The state when the branch on label novelty is reached: centroid table and number of clusters as before. -/
def VK (w : Arr2 F) (k : ℕ) (s : Core F) : Prop := VIs w s ∧ s.nClusters = k

theorem vk_setupIfFirst {w : Arr2 F} {k : ℕ} {setupC : Vec F → Py (Core F) Unit} {y : Vec F} :
    ∀ s, (VK w k s ∧ s.nSamples ≠ 0) → VK w k (setupIfFirst setupC y s).state := by
  rintro s ⟨h, h0⟩
  rw [setupIfFirst, bind_apply, get_apply, Res.bind_ok, if_neg h0]
  exact h

/-- The branch on label novelty raises. -/
theorem failsAt_branch {w : Arr2 F} {k i : ℕ} {new old : Py (Core F) Unit} {f : Unit → Py (Core F) Unit} {m : ℕ} (hw : m ≠ w.cols)
    (h1 : m ≠ 1 ∨ k ≤ i) (hn : m ≠ w.cols → FailsAt (VIs w) new) (ho : m ≠ w.cols → m ≠ 1 → FailsAt (VIs w) old) :
    FailsAt (VK w k) (Py.get >>= fun s : Core F => (if (i : ℤ) > (s.nClusters : ℤ) - 1 then new else old) >>= f) := by
  refine failsAt_get fun s hs => failsAt_left ?_
  rintro t ht
  rw [ite_app]
  split
  · exact hn hw t ht.1
  · rename_i hlt
    rw [hs.2] at hlt
    exact ho hw (h1.resolve_right (by omega)) t ht.1

/-! ## The centroid table is always rectangular -/

/-- `_v` is rectangular. -/
def RectV (s : Core F) : Prop := s.v.Rect

theorem rect_zeros [Zero F] (r c : ℕ) : (Arr2.zeros r c : Arr2 F).Rect := by
  intro x hx
  simp only [Arr2.zeros, List.mem_replicate] at hx
  simp [hx.2, Vec.zeros, Arr2.zeros]

theorem rect_vstack {a b : Arr2 F} {y : Vec F} (h : a.Rect) (hb : a.vstack y = .ok b) : b.Rect := by
  rw [Arr2.vstack] at hb
  split at hb
  · rename_i hl
    cases hb
    intro r hr
    rcases List.mem_append.mp hr with hr | hr
    · exact h r hr
    · rw [List.mem_singleton.mp hr]; exact hl
  · cases hb

theorem broadcastTo_length [Zero F] {x y : Vec F} {n : ℕ} (h : Vec.broadcastTo n x = .ok y) : y.length = n := by
  rw [Vec.broadcastTo] at h
  split at h
  · cases h; assumption
  · split at h
    · cases h; simp
    · cases h

theorem rect_setRow [Zero F] {a b : Arr2 F} {i : ℕ} {y : Vec F} (h : a.Rect) (hb : a.setRow i y = .ok b) : b.Rect := by
  rw [Arr2.setRow] at hb
  split at hb
  · obtain ⟨z, hz, hb⟩ := except_bind_inv hb
    cases hb
    intro r hr
    rcases List.mem_or_eq_of_mem_set hr with hr | hr
    · exact h r hr
    · rw [hr]; exact broadcastTo_length hz
  · cases hb

theorem keeps_get_lift {P : σ → Prop} {x : σ → Except PyErr α} {f : σ → α → Py σ β}
    (h : ∀ s a, P s → x s = .ok a → ∀ t, P t → P (f s a t).state) :
    Keeps P (Py.get >>= fun s => Py.lift (x s) >>= f s) := by
  intro s hs
  simp only [bind_apply, get_apply, Res.bind_ok, Py.lift]
  cases hx : x s with
  | error e => exact hs
  | ok a => exact h s a hs hx s hs

theorem rect_vstackV (x : Vec F) : Keeps RectV (vstackV x) :=
  keeps_get_lift fun _ _ h1 h2 _ _ => rect_vstack h1 h2
theorem rect_setV [Zero F] (i : ℕ) (x : Vec F) : Keeps RectV (setV i x) :=
  keeps_get_lift fun _ _ h1 h2 _ _ => rect_setRow h1 h2

/-- Statements that do not assign `_v`, or fill it with zeros. -/
macro "keeps_r" : tactic => `(tactic|
  repeat' first
    | with_reducible exact rect_vstackV _
    | with_reducible exact rect_setV _ _
    | with_reducible exact keeps_get
    | with_reducible exact keeps_lift _
    | with_reducible exact keeps_raise _
    | with_reducible exact keeps_pure _
    | with_reducible apply keeps_bind
    | with_reducible apply keeps_ite
    | with_reducible apply keeps_forEach
    | exact keeps_modify fun _ h => h
    | exact keeps_modify fun _ _ => rect_zeros _ _
    | intro _)

theorem rect_incClusters : Keeps RectV (incClusters (F := F)) := by unfold incClusters; keeps_r
theorem rect_appendN (x : ℕ) : Keeps RectV (appendN (F := F) x) := by unfold appendN; keeps_r
theorem rect_appendCP (x : F) : Keeps RectV (appendCP x) := by unfold appendCP; keeps_r
theorem rect_vstackG (x : Vec F) : Keeps RectV (vstackG x) := by unfold vstackG; keeps_r
theorem rect_setN (i x : ℕ) : Keeps RectV (setN (F := F) i x) := by unfold setN; keeps_r
theorem rect_setCP (i : ℕ) (x : F) : Keeps RectV (setCP i x) := by unfold setCP; keeps_r
theorem rect_setG [Zero F] (i : ℕ) (x : Vec F) : Keeps RectV (setG i x) := by unfold setG; keeps_r
theorem rect_setD [Zero F] (i : ℕ) (x : Vec F) : Keeps RectV (setD i x) := by unfold setD; keeps_r
theorem rect_DB_appendS (x : F) : Keeps RectV (DB.appendS x) := by unfold DB.appendS; keeps_r
theorem rect_DB_setS (i : ℕ) (x : F) : Keeps RectV (DB.setS i x) := by unfold DB.setS; keeps_r
theorem rect_RCIP_dstackSigma (x : Arr2 F) : Keeps RectV (RCIP.dstackSigma x) := by unfold RCIP.dstackSigma; keeps_r
theorem rect_RCIP_setSigma [Zero F] (i : ℕ) (x : Arr2 F) : Keeps RectV (RCIP.setSigma i x) := by unfold RCIP.setSigma; keeps_r
theorem rect_CSIL_setS [Zero F] (i : ℕ) (c r : Vec F) : Keeps RectV (CSIL.setS i c r) := by unfold CSIL.setS; keeps_r
theorem rect_baseSetup [Zero F] (x : Vec F) : Keeps RectV (Base.setup x) := by unfold Base.setup; keeps_r
theorem rect_baseSetupBatch (a : Arr2 F) : Keeps RectV (Base.setupBatch a) := by unfold Base.setupBatch; keeps_r

/-- Like `keeps_r`, for methods using the shared statements. -/
macro "keeps_rect" : tactic => `(tactic|
  repeat' first
    | with_reducible exact rect_incClusters
    | with_reducible exact rect_baseSetup _
    | with_reducible exact rect_baseSetupBatch _
    | with_reducible exact rect_appendN _
    | with_reducible exact rect_appendCP _
    | with_reducible exact rect_vstackV _
    | with_reducible exact rect_vstackG _
    | with_reducible exact rect_setN _ _
    | with_reducible exact rect_setV _ _
    | with_reducible exact rect_setCP _ _
    | with_reducible exact rect_setG _ _
    | with_reducible exact rect_setD _ _
    | with_reducible exact rect_DB_appendS _
    | with_reducible exact rect_DB_setS _ _
    | with_reducible exact rect_RCIP_dstackSigma _
    | with_reducible exact rect_RCIP_setSigma _ _
    | with_reducible exact rect_CSIL_setS _ _ _
    | with_reducible exact keeps_get
    | with_reducible exact keeps_lift _
    | with_reducible exact keeps_raise _
    | with_reducible exact keeps_pure _
    | with_reducible apply keeps_bind
    | with_reducible apply keeps_ite
    | with_reducible apply keeps_forEach
    | exact keeps_modify fun _ h => h
    | exact keeps_modify fun _ _ => rect_zeros _ _
    | intro _)

namespace Gen
variable [Arith F]

@[simp] theorem smul_length (c : F) (a : Vec F) : (Vec.smul c a).length = a.length := by simp [Vec.smul]

theorem runningMean_err {n : ℕ} {a b : Vec F} (h : a.length ≠ b.length) (h1 : a.length ≠ 1) (h2 : b.length ≠ 1) :
    runningMean n a b = .error .valueError := bin_err (by simpa using h) (by simpa using h1) (by simpa using h2)

theorem runningMean_length {n : ℕ} {a b v : Vec F} (h : runningMean n a b = .ok v) (hb : b.length ≠ a.length)
    (h1 : b.length ≠ 1) : v.length ≠ a.length ∧ v.length ≠ 1 := by
  by_cases ha : a.length = 1
  · rw [runningMean, Vec.add, Vec.bin, smul_length, smul_length, if_neg (Ne.symm hb), if_pos ha] at h
    cases h
    simp [h1, hb]
  · rw [runningMean_err (Ne.symm hb) ha h1] at h; cases h

theorem oldStats_length {s : Core F} {y : Vec F} {i : ℕ} {st : OldStats F} (h : oldStats y i s = .ok st) (hr : s.v.Rect)
    (hy : y.length ≠ s.v.cols) (h1 : y.length ≠ 1) : st.vNew.length ≠ s.v.cols ∧ st.vNew.length ≠ 1 := by
  unfold oldStats at h
  obtain ⟨n, hn, h⟩ := except_bind_inv h
  obtain ⟨r, hrow, h⟩ := except_bind_inv h
  obtain ⟨v, hv, h⟩ := except_bind_inv h
  have hl := row_length hr hrow
  have key := runningMean_length hv (by rwa [hl]) h1
  rw [hl] at key
  obtain ⟨_, _, h⟩ := except_bind_inv h
  obtain ⟨_, _, h⟩ := except_bind_inv h
  obtain ⟨_, _, h⟩ := except_bind_inv h
  obtain ⟨_, _, h⟩ := except_bind_inv h
  obtain ⟨_, _, h⟩ := except_bind_inv h
  obtain ⟨_, _, h⟩ := except_bind_inv h
  obtain ⟨_, _, h⟩ := except_bind_inv h
  obtain ⟨_, _, h⟩ := except_bind_inv h
  cases h
  exact key

theorem vk_setupOrMu {w : Arr2 F} {k : ℕ} {setupC : Vec F → Py (Core F) Unit} {y : Vec F} :
    ∀ s, (VK w k s ∧ s.nSamples ≠ 0) → VK w k (setupOrMu setupC y s).state := by
  rintro s ⟨h, h0⟩
  rw [setupOrMu, bind_apply, get_apply, Res.bind_ok, if_neg h0]
  exact (by keeps_v : Keeps (VK w k) (do
      let mu ← Py.lift (runningMean (s.nSamples + 1) s.mu y)
      Py.modify fun s => { s with mu := mu })) s h


/-- A sample whose length is neither the number of features nor 1, or that has another length than the number of features and a
new label, makes `_param_inc` raise. -/
theorem incBody_fails (I : Index) {s : Core F} {y : Vec F} {i : ℕ} (hr : s.v.Rect) (h0 : s.nSamples ≠ 0)
    (hy : y.length ≠ s.v.cols) (h1 : y.length ≠ 1 ∨ s.nClusters ≤ i) : ((mod F I).incBody y i s).Fails := by
  suffices FailsAt (fun t => VK s.v s.nClusters t ∧ t.nSamples ≠ 0) ((mod F I).incBody y i) from this s ⟨⟨rfl, rfl⟩, h0⟩
  have hold : ∀ {m : OldStats F → Py (Core F) Unit}, (∀ st, st.vNew.length ≠ s.v.cols → st.vNew.length ≠ 1 → FailsAt (VIs s.v) (m st)) →
      y.length ≠ s.v.cols → y.length ≠ 1 → ∀ t, VIs s.v t → FailsAt (VIs s.v) (Py.lift (oldStats y i t) >>= m) := by
    intro m hm h2 h3 t ht
    refine failsAt_lift fun st hst => ?_
    rw [VIs] at ht
    have := oldStats_length hst (by rwa [ht]) (by rwa [ht]) h3
    rw [ht] at this
    exact hm st this.1 this.2
  cases I
  · refine failsAt_get fun s0 _ => failsAt_after vk_setupOrMu fun _ => failsAt_branch hy h1 (fun h => ?_) fun h h' => ?_
    · refine failsAt_get fun _ _ => failsAt_right v_incClusters fun _ => failsAt_right (v_appendN _) fun _ =>
        failsAt_right (v_appendCP _) fun _ => failsAt_left (vstackV_fails h)
    · refine failsAt_get fun t ht => hold (fun st g g' => ?_) h h' t ht
      exact failsAt_right (v_setN _ _) fun _ => failsAt_left (setV_fails _ g g')
  · refine failsAt_get fun s0 _ => failsAt_after vk_setupOrMu fun _ => failsAt_branch hy h1 (fun h => ?_) fun h h' => ?_
    · refine failsAt_get fun _ _ => failsAt_right v_incClusters fun _ => failsAt_right (v_appendN _) fun _ =>
        failsAt_right (v_appendCP _) fun _ => failsAt_left (vstackV_fails h)
    · refine failsAt_get fun t ht => hold (fun st g g' => ?_) h h' t ht
      exact failsAt_right (v_setN _ _) fun _ => failsAt_left (setV_fails _ g g')
  · refine failsAt_get fun s0 _ => failsAt_after vk_setupOrMu fun _ => failsAt_branch hy h1 (fun h => ?_) fun h h' => ?_
    · refine failsAt_get fun _ _ => failsAt_lift fun _ _ => failsAt_right v_incClusters fun _ => failsAt_right (v_appendN _) fun _ =>
        failsAt_right (v_appendCP _) fun _ => failsAt_left (vstackV_fails h)
    · refine failsAt_get fun t ht => hold (fun st g g' => ?_) h h' t ht
      exact failsAt_lift fun _ _ => failsAt_right (v_setN _ _) fun _ => failsAt_left (setV_fails _ g g')
  · refine failsAt_get fun s0 _ => failsAt_after vk_setupOrMu fun _ => failsAt_branch hy h1 (fun h => ?_) fun h h' => ?_
    · refine failsAt_get fun _ _ => failsAt_lift fun _ _ => failsAt_right v_incClusters fun _ => failsAt_right (v_appendN _) fun _ =>
        failsAt_right (v_appendCP _) fun _ => failsAt_right (v_appendS _) fun _ => failsAt_left (vstackV_fails h)
    · refine failsAt_get fun t ht => hold (fun st g g' => ?_) h h' t ht
      exact failsAt_lift fun _ _ => failsAt_right (v_setN _ _) fun _ => failsAt_left (setV_fails _ g g')
  · refine failsAt_get fun s0 _ => failsAt_after vk_setupOrMu fun _ => failsAt_branch hy h1 (fun h => ?_) fun h h' => ?_
    · refine failsAt_get fun _ _ => failsAt_lift fun _ _ => failsAt_right v_incClusters fun _ => failsAt_right (v_appendN _) fun _ =>
        failsAt_right (v_appendCP _) fun _ => failsAt_left (vstackV_fails h)
    · refine failsAt_get fun t ht => hold (fun st g g' => ?_) h h' t ht
      exact failsAt_lift fun _ _ => failsAt_right (v_setN _ _) fun _ => failsAt_left (setV_fails _ g g')
  · refine failsAt_get fun s0 _ => failsAt_after vk_setupOrMu fun _ => failsAt_branch hy h1 (fun h => ?_) fun h h' => ?_
    · refine failsAt_get fun _ _ => failsAt_lift fun _ _ => failsAt_right v_incClusters fun _ => failsAt_right (v_appendN _) fun _ =>
        failsAt_right (v_appendCP _) fun _ => failsAt_left (vstackV_fails h)
    · refine failsAt_get fun t ht => hold (fun st g g' => ?_) h h' t ht
      exact failsAt_lift fun _ _ => failsAt_right (v_setN _ _) fun _ => failsAt_left (setV_fails _ g g')
  · refine failsAt_get fun s0 _ => failsAt_after vk_setupIfFirst fun _ => failsAt_branch hy h1 (fun h => ?_) fun h h' => ?_
    · refine failsAt_get fun _ _ => failsAt_lift fun _ _ => failsAt_right v_incClusters fun _ => failsAt_right (v_appendN _) fun _ =>
        failsAt_left (vstackV_fails h)
    · refine failsAt_get fun t ht => failsAt_lift fun _ _ => failsAt_lift fun r hrow => failsAt_lift fun v hv => ?_
      rw [VIs] at ht
      rw [ht] at hrow
      have g := runningMean_length hv (by rwa [row_length hr hrow]) h'
      rw [row_length hr hrow] at g
      exact failsAt_lift fun _ _ => failsAt_right (v_setN _ _) fun _ => failsAt_left (setV_fails _ g.1 g.2)
  · refine failsAt_get fun s0 _ => failsAt_after vk_setupIfFirst fun _ => failsAt_get fun _ _ => failsAt_lift fun _ _ =>
      failsAt_right (keeps_modify fun _ h => h) fun _ => failsAt_branch hy h1 (fun h => ?_) fun h h' => ?_
    · refine failsAt_get fun _ _ => failsAt_lift fun _ _ => failsAt_right v_incClusters fun _ => failsAt_right (v_appendN _) fun _ =>
        failsAt_left (vstackV_fails h)
    · refine failsAt_get fun t ht => failsAt_lift fun _ _ => failsAt_lift fun r hrow => failsAt_lift fun v hv => ?_
      rw [VIs] at ht
      rw [ht] at hrow
      have g := runningMean_length hv (by rwa [row_length hr hrow]) h'
      rw [row_length hr hrow] at g
      exact failsAt_lift fun _ _ => failsAt_lift fun _ _ => failsAt_lift fun _ _ => failsAt_lift fun _ _ =>
        failsAt_right (v_setN _ _) fun _ => failsAt_left (setV_fails _ g.1 g.2)
  · refine failsAt_get fun s0 _ => failsAt_after vk_setupIfFirst fun _ => failsAt_branch hy h1 (fun h => ?_) fun h h' => ?_
    · refine failsAt_get fun _ _ => failsAt_lift fun _ _ => failsAt_lift fun _ _ => failsAt_right v_incClusters fun _ =>
        failsAt_right (v_appendN _) fun _ => failsAt_right (v_appendCP _) fun _ => failsAt_left (vstackV_fails h)
    · refine failsAt_get fun t ht => failsAt_lift fun _ _ => failsAt_lift fun r hrow => failsAt_lift fun v hv => ?_
      rw [VIs] at ht
      rw [ht] at hrow
      have g := runningMean_length hv (by rwa [row_length hr hrow]) h'
      rw [row_length hr hrow] at g
      exact failsAt_lift fun _ _ => failsAt_lift fun _ _ => failsAt_lift fun _ _ => failsAt_lift fun _ _ => failsAt_lift fun _ _ =>
        failsAt_lift fun _ _ => failsAt_lift fun _ _ => failsAt_lift fun _ _ => failsAt_lift fun _ _ =>
        failsAt_right (v_setN _ _) fun _ => failsAt_left (setV_fails _ g.1 g.2)

theorem rect_incBody (I : Index) (x : Vec F) (i : ℕ) : Keeps RectV ((mod F I).incBody x i) := by
  cases I
  · show Keeps RectV (CH.incBody x i); unfold CH.incBody setupOrMu CH.setup CH.incNew CH.incOld CH.finish; keeps_rect
  · show Keeps RectV (WB.incBody x i); unfold WB.incBody setupOrMu WB.setup WB.incNew WB.incOld WB.finish; keeps_rect
  · show Keeps RectV (XB.incBody x i); unfold XB.incBody setupOrMu XB.setup XB.incNew XB.incOld; keeps_rect
  · show Keeps RectV (DB.incBody x i); unfold DB.incBody setupOrMu DB.setup DB.incNew DB.incOld; keeps_rect
  · show Keeps RectV (GD43.incBody x i); unfold GD43.incBody setupOrMu GD43.setup GD43.incNew GD43.incOld; keeps_rect
  · show Keeps RectV (GD53.incBody x i); unfold GD53.incBody setupOrMu GD53.setup GD53.incNew GD53.incOld; keeps_rect
  · show Keeps RectV (PS.incBody x i); unfold PS.incBody setupIfFirst PS.setup PS.incNew PS.incOld; keeps_rect
  · show Keeps RectV (RCIP.incBody x i); unfold RCIP.incBody setupIfFirst RCIP.setup RCIP.incNew RCIP.incOld; keeps_rect
  · show Keeps RectV (CSIL.incBody x i); unfold CSIL.incBody setupIfFirst CSIL.setup CSIL.incNew CSIL.incOld; keeps_rect

theorem rect_paramBatch (I : Index) (a : Arr2 F) (l : List ℤ) : Keeps RectV ((mod F I).paramBatch a l) := by
  cases I
  · show Keeps RectV (CH.paramBatch a l); unfold CH.paramBatch CH.batchStep; keeps_rect
  · show Keeps RectV (WB.paramBatch a l); unfold WB.paramBatch WB.batchStep; keeps_rect
  · show Keeps RectV (XB.paramBatch a l); unfold XB.paramBatch XB.batchStep; keeps_rect
  · show Keeps RectV (DB.paramBatch a l); unfold DB.paramBatch DB.batchStep; keeps_rect
  · show Keeps RectV (GD43.paramBatch a l); unfold GD43.paramBatch GD43.batchStep; keeps_rect
  · show Keeps RectV (GD53.paramBatch a l); unfold GD53.paramBatch GD53.batchStep; keeps_rect
  · show Keeps RectV (PS.paramBatch a l); unfold PS.paramBatch PS.batchStep; keeps_rect
  · show Keeps RectV (RCIP.paramBatch a l); unfold RCIP.paramBatch RCIP.batchStep; keeps_rect
  · show Keeps RectV (CSIL.paramBatch a l); unfold CSIL.paramBatch CSIL.batchStep; keeps_rect

theorem rect_evaluate (I : Index) : Keeps RectV (mod F I).evaluate := by
  cases I
  · show Keeps RectV (CH.evaluate (F := F)); unfold CH.evaluate; keeps_rect
  · show Keeps RectV (WB.evaluate (F := F)); unfold WB.evaluate; keeps_rect
  · show Keeps RectV (XB.evaluate (F := F)); unfold XB.evaluate; keeps_rect
  · show Keeps RectV (DB.evaluate (F := F)); unfold DB.evaluate; keeps_rect
  · show Keeps RectV (GD43.evaluate (F := F)); unfold GD43.evaluate; keeps_rect
  · show Keeps RectV (GD53.evaluate (F := F)); unfold GD53.evaluate; keeps_rect
  · show Keeps RectV (PS.evaluate (F := F)); unfold PS.evaluate; keeps_rect
  · show Keeps RectV (RCIP.evaluate (F := F)); unfold RCIP.evaluate; keeps_rect
  · show Keeps RectV (CSIL.evaluate (F := F)); unfold CSIL.evaluate; keeps_rect

/-- A property of the attributes kept by the three methods of a class is kept by every call. -/
theorem keeps_getCvi {P : Core F → Prop} {I : Index} (h1 : ∀ x i, Keeps P ((mod F I).incBody x i))
    (h2 : ∀ a l, Keeps P ((mod F I).paramBatch a l)) (h3 : Keeps P (mod F I).evaluate) (data : Data F) (label : LabelArg) :
    Keeps (fun o => P o.core) (getCvi (mod F I) data label) := by
  have hon : ∀ {γ : Type} {x : Py (Core F) γ}, Keeps P x → Keeps (fun o : Obj F => P o.core) (onCore x) := by
    intro γ x hx o ho
    have := hx o.core ho
    rw [onCore]
    cases hr : x o.core <;> (rw [hr] at this; exact this)
  refine keeps_bind ?_ fun _ => keeps_bind (hon h3) fun _ => keeps_bind keeps_get fun _ => keeps_pure _
  intro o ho
  cases data with
  | d1 x =>
    simp only [Module.update, Module.paramInc]
    rw [if_neg (by simp [concrete])]
    cases label with
    | arr l => exact ho
    | int c => exact hon (h1 x _) _ ho
  | d2 a =>
    simp only [Module.update]
    split
    · split
      · exact ho
      · rw [if_neg (by simp [concrete])]
        exact hon (h2 a _) _ ho
    · exact ho
  | other sh => exact ho

theorem keeps_after {P : Core F → Prop} {I : Index} (h1 : ∀ x i, Keeps P ((mod F I).incBody x i))
    (h2 : ∀ a l, Keeps P ((mod F I).paramBatch a l)) (h3 : Keeps P (mod F I).evaluate) (calls : List (Call F)) (o : Obj F) (ho : P o.core) :
    P (after (mod F I) calls o).core := by
  induction calls generalizing o with
  | nil => exact ho
  | cons c l ih => exact ih _ (keeps_getCvi h1 h2 h3 c.data c.label o ho)

/-- Whatever was called before, the centroid table is rectangular. -/
theorem rect_after (I : Index) (calls : List (Call F)) : (after (mod F I) calls (mod F I).fresh).core.v.Rect :=
  keeps_after (P := RectV) (rect_incBody I) (rect_paramBatch I) (rect_evaluate I) calls _ (by
    have : (mod F I).fresh.core.v = Arr2.zeros 0 0 := by cases I <;> rfl
    rw [RectV, this]; exact rect_zeros 0 0)

theorem call_inc_fails {I : Index} {o : Obj F} {y : Vec F} {c : ℤ}
    (h : ((mod F I).incBody y (o.labelMap.getInternalLabel c).1 o.core).Fails) :
    ∃ e o', getCvi (mod F I) (.d1 y) (.int c) o = .err e o' := by
  obtain ⟨e, s', he⟩ := h
  refine ⟨e, ⟨(o.labelMap.getInternalLabel c).2, s'⟩, ?_⟩
  have : (mod F I).update (.d1 y) (.int c) o = .err e ⟨(o.labelMap.getInternalLabel c).2, s'⟩ := by
    simp [Module.update, Module.paramInc, concrete, onCore, he, Res.mapState]
  rw [getCvi, bind_apply, this]; rfl

end Gen

/-! ## The same for the real model -/

theorem vk_setupOrMu {w : Arr2} {k : ℕ} {setupC : Vec → Py Core Unit} {y : Vec} :
    ∀ s, (VK w k s ∧ s.nSamples ≠ 0) → VK w k (setupOrMu setupC y s).state := by
  rintro s ⟨h, h0⟩
  rw [setupOrMu, bind_apply, get_apply, Res.bind_ok, if_neg h0]
  exact (by keeps_v : Keeps (VK w k) (do
      let mu ← Py.lift (runningMean (s.nSamples + 1) s.mu y)
      Py.modify fun s => { s with mu := mu })) s h

theorem incBody_fails (I : Index) {s : Core} {y : Vec} {i : ℕ} (hr : s.v.Rect) (h0 : s.nSamples ≠ 0)
    (hy : y.length ≠ s.v.cols) (h1 : y.length ≠ 1 ∨ s.nClusters ≤ i) : (I.mod.incBody y i s).Fails := by
  rw [← Gen.mod_XR]; exact Gen.incBody_fails I hr h0 hy h1

theorem rect_incBody (I : Index) (x : Vec) (i : ℕ) : Keeps RectV (I.mod.incBody x i) := by
  rw [← Gen.mod_XR]; exact Gen.rect_incBody I x i

theorem rect_paramBatch (I : Index) (a : Arr2) (l : List ℤ) : Keeps RectV (I.mod.paramBatch a l) := by
  rw [← Gen.mod_XR]; exact Gen.rect_paramBatch I a l

theorem rect_evaluate (I : Index) : Keeps RectV I.mod.evaluate := by
  rw [← Gen.mod_XR]; exact Gen.rect_evaluate I

theorem keeps_getCvi {P : Core → Prop} {I : Index} (h1 : ∀ x i, Keeps P (I.mod.incBody x i))
    (h2 : ∀ a l, Keeps P (I.mod.paramBatch a l)) (h3 : Keeps P I.mod.evaluate) (data : Data) (label : LabelArg) :
    Keeps (fun o => P o.core) (getCvi I.mod data label) := by
  rw [← Gen.mod_XR] at h1 h2 h3 ⊢; exact Gen.keeps_getCvi h1 h2 h3 data label

theorem keeps_after {P : Core → Prop} {I : Index} (h1 : ∀ x i, Keeps P (I.mod.incBody x i))
    (h2 : ∀ a l, Keeps P (I.mod.paramBatch a l)) (h3 : Keeps P I.mod.evaluate) (calls : List Call) (o : Obj) (ho : P o.core) :
    P (after I.mod calls o).core := by
  rw [← Gen.mod_XR] at h1 h2 h3 ⊢; exact Gen.keeps_after h1 h2 h3 calls o ho

theorem rect_after (I : Index) (calls : List Call) : (after I.mod calls I.mod.fresh).core.v.Rect := by
  rw [← Gen.mod_XR]; exact Gen.rect_after I calls

theorem call_inc_fails {I : Index} {o : Obj} {y : Vec} {c : ℤ}
    (h : (I.mod.incBody y (o.labelMap.getInternalLabel c).1 o.core).Fails) :
    ∃ e o', getCvi I.mod (.d1 y) (.int c) o = .err e o' := by
  rw [← Gen.mod_XR] at h ⊢; exact Gen.call_inc_fails h

end Verif

import Verif.Model.Alias
import Verif.Proofs.WrongLength

/-!
# Sharing `_mu` with the caller
-/

namespace Verif
open Py

variable {α β : Type}

/-- The method does not look at the entries of `_mu`: replacing them changes nothing but `_mu`. -/
def MuBlind (x : Py Core α) : Prop := ∀ (s : Core) (m : Vec), m.length = s.mu.length →
  ∃ m' : Vec, m'.length = (x s).state.mu.length ∧ x { s with mu := m } = (x s).mapState fun t => { t with mu := m' }

theorem blind_pure (a : α) : MuBlind (pure a : Py Core α) := fun _ m h => ⟨m, h, rfl⟩
theorem blind_lift (e : Except PyErr α) : MuBlind (Py.lift e : Py Core α) := fun _ m h => by
  cases e <;> exact ⟨m, h, rfl⟩
theorem blind_raise (e : PyErr) : MuBlind (Py.raise e : Py Core α) := fun _ m h => ⟨m, h, rfl⟩
theorem blind_modify {f : Core → Core} (hf : ∀ s m, f { s with mu := m } = { f s with mu := m }) (hm : ∀ s, (f s).mu = s.mu) :
    MuBlind (Py.modify f) := fun s m h => ⟨m, by rw [modify_apply, Res.state, hm, h], by
      rw [modify_apply, modify_apply, hf]; rfl⟩
theorem blind_bind {x : Py Core α} {f : α → Py Core β} (hx : MuBlind x) (hf : ∀ a, MuBlind (f a)) : MuBlind (x >>= f) := by
  intro s m h
  obtain ⟨m1, h1, e1⟩ := hx s m h
  rw [bind_apply, bind_apply, e1]
  cases hr : x s with
  | err e s1 => rw [hr] at h1; exact ⟨m1, h1, rfl⟩
  | ok a s1 =>
    rw [hr] at h1
    obtain ⟨m2, h2, e2⟩ := hf a s1 m1 h1
    exact ⟨m2, h2, e2⟩
theorem blind_get {f : Core → Py Core β} (h1 : ∀ s m, f { s with mu := m } = f s) (h2 : ∀ s, MuBlind (f s)) :
    MuBlind (Py.get >>= f) := by
  intro s m h
  obtain ⟨m', h', e⟩ := h2 s s m h
  refine ⟨m', h', ?_⟩
  show f { s with mu := m } { s with mu := m } = _
  rw [h1]; exact e
theorem blind_ite {c : Prop} [Decidable c] {x y : Py Core α} (hx : MuBlind x) (hy : MuBlind y) :
    MuBlind (if c then x else y) := by split <;> assumption

macro "blind" : tactic => `(tactic|
  repeat' first
    | with_reducible exact blind_lift _
    | with_reducible exact blind_raise _
    | with_reducible exact blind_pure _
    | exact blind_modify (fun _ _ => rfl) fun _ => rfl
    | (with_reducible refine blind_get (fun _ _ => rfl) fun _ => ?_)
    | with_reducible apply blind_bind
    | with_reducible apply blind_ite
    | intro _)

theorem blind_appendN (x : ℕ) : MuBlind (appendN x) := by unfold appendN; blind
theorem blind_appendCP (x : XR) : MuBlind (appendCP x) := by unfold appendCP; blind
theorem blind_appendS (x : XR) : MuBlind (DB.appendS x) := by unfold DB.appendS; blind
theorem blind_vstackV (x : Vec) : MuBlind (vstackV x) := by unfold vstackV; blind
theorem blind_vstackG (x : Vec) : MuBlind (vstackG x) := by unfold vstackG; blind
theorem blind_setN (i x : ℕ) : MuBlind (setN i x) := by unfold setN; blind
theorem blind_setV (i : ℕ) (x : Vec) : MuBlind (setV i x) := by unfold setV; blind
theorem blind_setCP (i : ℕ) (x : XR) : MuBlind (setCP i x) := by unfold setCP; blind
theorem blind_setS (i : ℕ) (x : XR) : MuBlind (DB.setS i x) := by unfold DB.setS; blind
theorem blind_setG (i : ℕ) (x : Vec) : MuBlind (setG i x) := by unfold setG; blind
theorem blind_setD (i : ℕ) (x : Vec) : MuBlind (setD i x) := by unfold setD; blind
theorem blind_incClusters : MuBlind incClusters := by unfold incClusters; blind

macro "blind_all" : tactic => `(tactic|
  repeat' first
    | with_reducible exact blind_lift _
    | with_reducible exact blind_raise _
    | with_reducible exact blind_pure _
    | with_reducible exact blind_appendN _
    | with_reducible exact blind_appendCP _
    | with_reducible exact blind_appendS _
    | with_reducible exact blind_vstackV _
    | with_reducible exact blind_vstackG _
    | with_reducible exact blind_setN _ _
    | with_reducible exact blind_setV _ _
    | with_reducible exact blind_setCP _ _
    | with_reducible exact blind_setS _ _
    | with_reducible exact blind_setG _ _
    | with_reducible exact blind_setD _ _
    | with_reducible exact blind_incClusters
    | exact blind_modify (fun _ _ => rfl) fun _ => rfl
    | (with_reducible refine blind_get (fun _ _ => rfl) fun _ => ?_)
    | with_reducible apply blind_bind
    | with_reducible apply blind_ite
    | intro _)

theorem runningMean_blind (n : ℕ) {a b : Vec} (x : Vec) (h : a.length = b.length) :
    (∃ u v, runningMean n a x = .ok u ∧ runningMean n b x = .ok v ∧ u.length = v.length) ∨
    (∃ e, runningMean n a x = .error e ∧ runningMean n b x = .error e) := by
  simp only [runningMean, Vec.add, Vec.bin, smul_length, h]
  split_ifs
  · exact .inl ⟨_, _, rfl, rfl, by simp [h]⟩
  · exact .inl ⟨_, _, rfl, rfl, by simp⟩
  · exact .inl ⟨_, _, rfl, rfl, by simp [h]⟩
  · exact .inr ⟨_, rfl, rfl⟩

theorem blind_setupOrMu {su : Vec → Py Core Unit} (hsu : ∀ y, MuBlind (su y)) (x : Vec) : MuBlind (setupOrMu su x) := by
  intro s m h
  simp only [setupOrMu, bind_apply, get_apply, Res.bind_ok]
  by_cases hn : s.nSamples = 0
  · rw [if_pos hn, if_pos hn]; exact hsu x s m h
  · rw [if_neg hn, if_neg hn]
    rcases runningMean_blind (s.nSamples + 1) x h with ⟨u, v, hu, hv, hl⟩ | ⟨e, hu, hv⟩
    · refine ⟨u, ?_, ?_⟩
      · rw [lift_bind hv (modify_apply _ _)]; exact hl
      · rw [lift_bind hv (modify_apply _ _), lift_bind hu (modify_apply _ _)]; rfl
    · refine ⟨m, ?_, ?_⟩
      · rw [bind_apply, hv]; exact h
      · rw [bind_apply, bind_apply, hu, hv]; rfl

/-- A class that stores the sample but does not look at it again. -/
def Index.MuUnused (I : Index) : Prop := I = .XB ∨ I = .DB ∨ I = .GD43 ∨ I = .GD53

theorem blind_setMu {f : Core → Core} (hf : ∀ s m, f { s with mu := m } = f s) : MuBlind (Py.modify f) :=
  fun s m _ => ⟨(f s).mu, rfl, by rw [modify_apply, modify_apply, hf]; rfl⟩

theorem blind_incBody {I : Index} (hI : I.MuUnused) (y : Vec) (i : ℕ) : MuBlind (I.mod.incBody y i) := by
  rcases hI with rfl | rfl | rfl | rfl
  · refine blind_get (fun _ _ => rfl) fun s0 => blind_bind (blind_setupOrMu (fun y => ?_) y) fun _ =>
      blind_get (fun _ _ => rfl) fun s => blind_bind (blind_ite ?_ ?_) fun _ => ?_
    · exact blind_bind (blind_modify (fun _ _ => rfl) fun _ => rfl) fun _ => blind_setMu fun _ _ => rfl
    · unfold XB.incNew; blind_all
    · unfold XB.incOld; blind_all
    · blind
  · refine blind_get (fun _ _ => rfl) fun s0 => blind_bind (blind_setupOrMu (fun y => ?_) y) fun _ =>
      blind_get (fun _ _ => rfl) fun s => blind_bind (blind_ite ?_ ?_) fun _ => ?_
    · exact blind_bind (blind_modify (fun _ _ => rfl) fun _ => rfl) fun _ => blind_setMu fun _ _ => rfl
    · unfold DB.incNew; blind_all
    · unfold DB.incOld; blind_all
    · blind
  · refine blind_get (fun _ _ => rfl) fun s0 => blind_bind (blind_setupOrMu (fun y => ?_) y) fun _ =>
      blind_get (fun _ _ => rfl) fun s => blind_bind (blind_ite ?_ ?_) fun _ => ?_
    · exact blind_bind (blind_modify (fun _ _ => rfl) fun _ => rfl) fun _ => blind_setMu fun _ _ => rfl
    · unfold GD43.incNew; blind_all
    · unfold GD43.incOld; blind_all
    · blind
  · refine blind_get (fun _ _ => rfl) fun s0 => blind_bind (blind_setupOrMu (fun y => ?_) y) fun _ =>
      blind_get (fun _ _ => rfl) fun s => blind_bind (blind_ite ?_ ?_) fun _ => ?_
    · exact blind_bind (blind_modify (fun _ _ => rfl) fun _ => rfl) fun _ => blind_setMu fun _ _ => rfl
    · unfold GD53.incNew; blind_all
    · unfold GD53.incOld; blind_all
    · blind

theorem blind_evaluate {I : Index} (hI : I.MuUnused) : MuBlind I.mod.evaluate := by
  rcases hI with rfl | rfl | rfl | rfl
  · show MuBlind XB.evaluate; unfold XB.evaluate; blind
  · show MuBlind DB.evaluate; unfold DB.evaluate; blind
  · show MuBlind GD43.evaluate; unfold GD43.evaluate; blind
  · show MuBlind GD53.evaluate; unfold GD53.evaluate; blind

theorem call_blind {I : Index} (hI : I.MuUnused) (x : Vec) (c : ℤ) (o : Obj) (m : Vec) (h : m.length = o.core.mu.length) :
    ∃ m' : Vec, m'.length = (getCvi I.mod (.d1 x) (.int c) o).state.core.mu.length ∧
      getCvi I.mod (.d1 x) (.int c) ⟨o.labelMap, { o.core with mu := m }⟩ =
        (getCvi I.mod (.d1 x) (.int c) o).mapState fun t => ⟨t.labelMap, { t.core with mu := m' }⟩ := by
  obtain ⟨m1, h1, e1⟩ := blind_incBody hI x (o.labelMap.getInternalLabel c).1 o.core m h
  have hu : ∀ o : Obj, I.mod.update (.d1 x) (.int c) o =
      (I.mod.incBody x (o.labelMap.getInternalLabel c).1 o.core).mapState fun s => ⟨(o.labelMap.getInternalLabel c).2, s⟩ := by
    intro o
    simp [Module.update, Module.paramInc, concrete, onCore]
  rw [getCvi, bind_apply, bind_apply, hu, hu]
  simp only [e1]
  cases hr : I.mod.incBody x (o.labelMap.getInternalLabel c).1 o.core with
  | err e s => rw [hr] at h1; exact ⟨m1, h1, rfl⟩
  | ok a s =>
    rw [hr] at h1
    obtain ⟨m2, h2, e2⟩ := blind_evaluate hI s m1 h1
    simp only [Res.mapState, Res.bind_ok, bind_apply, onCore, e2]
    cases he : I.mod.evaluate s with
    | err e s => rw [he] at h2; exact ⟨m2, h2, rfl⟩
    | ok a s => rw [he] at h2; exact ⟨m2, h2, rfl⟩

/-- `_mu` is `y`. -/
def MuIs (y : Vec) (s : Core) : Prop := s.mu = y

theorem muIs_rest {I : Index} (hI : I.MuUnused) (y : Vec) (i : ℕ) (s : Core) (h0 : s.nSamples = 0) :
    (I.mod.incBody y i s).state.mu = y := by
  have key : ∀ {su : Vec → Py Core Unit} {f : Unit → Py Core Unit}, (∀ s, MuIs y (su y s).state) → (∀ u, Keeps (MuIs y) (f u)) →
      MuIs y ((setupOrMu su y >>= f) s).state := by
    intro su f hsu hf
    have : setupOrMu su y s = su y s := by simp [setupOrMu, h0]
    rw [bind_apply, this]
    have hs := hsu s
    cases hr : su y s with
    | err e s1 => rw [hr] at hs; exact hs
    | ok a s1 => rw [hr] at hs; exact hf a s1 hs
  rcases hI with rfl | rfl | rfl | rfl
  · refine key (fun _ => rfl) fun _ => keeps_bind keeps_get fun _ => keeps_bind (keeps_ite ?_ ?_) fun _ => ?_
    · unfold XB.incNew appendN appendCP vstackV vstackG incClusters; keeps_v
    · unfold XB.incOld setN setV setCP setG setD; keeps_v
    · keeps_v
  · refine key (fun _ => rfl) fun _ => keeps_bind keeps_get fun _ => keeps_bind (keeps_ite ?_ ?_) fun _ => ?_
    · unfold DB.incNew DB.appendS appendN appendCP vstackV vstackG incClusters; keeps_v
    · unfold DB.incOld DB.setS setN setV setCP setG setD; keeps_v
    · keeps_v
  · refine key (fun _ => rfl) fun _ => keeps_bind keeps_get fun _ => keeps_bind (keeps_ite ?_ ?_) fun _ => ?_
    · unfold GD43.incNew appendN appendCP vstackV vstackG incClusters; keeps_v
    · unfold GD43.incOld setN setV setCP setG setD; keeps_v
    · keeps_v
  · refine key (fun _ => rfl) fun _ => keeps_bind keeps_get fun _ => keeps_bind (keeps_ite ?_ ?_) fun _ => ?_
    · unfold GD53.incNew appendN appendCP vstackV vstackG incClusters; keeps_v
    · unfold GD53.incOld setN setV setCP setG setD; keeps_v
    · keeps_v

theorem muIs_evaluate {I : Index} (hI : I.MuUnused) (y : Vec) : Keeps (MuIs y) I.mod.evaluate := by
  rcases hI with rfl | rfl | rfl | rfl
  · show Keeps _ XB.evaluate; unfold XB.evaluate; keeps_v
  · show Keeps _ DB.evaluate; unfold DB.evaluate; keeps_v
  · show Keeps _ GD43.evaluate; unfold GD43.evaluate; keeps_v
  · show Keeps _ GD53.evaluate; unfold GD53.evaluate; keeps_v

/-- If the running mean raises, the call does, and leaves everything but the label map alone. -/
theorem incBody_mu_err {I : Index} (hI : I.storesSample = true) {y : Vec} {i : ℕ} {s : Core} {e : PyErr} (h0 : s.nSamples ≠ 0)
    (h : runningMean (s.nSamples + 1) s.mu y = .error e) : I.mod.incBody y i s = .err e s := by
  have key : ∀ {su : Vec → Py Core Unit} {f : Unit → Py Core Unit}, (setupOrMu su y >>= f) s = .err e s := by
    intro su f
    rw [bind_apply]
    have : setupOrMu su y s = .err e s := by simp [setupOrMu, h0, h]
    rw [this]; rfl
  cases I <;> first | exact key | cases hI

theorem call_state {I : Index} {P : Core → Prop} (x : Vec) (c : ℤ) (o : Obj)
    (h : P (I.mod.incBody x (o.labelMap.getInternalLabel c).1 o.core).state) (he : Keeps P I.mod.evaluate) :
    P (getCvi I.mod (.d1 x) (.int c) o).state.core := by
  have hu : I.mod.update (.d1 x) (.int c) o =
      (I.mod.incBody x (o.labelMap.getInternalLabel c).1 o.core).mapState fun s => ⟨(o.labelMap.getInternalLabel c).2, s⟩ := by
    simp [Module.update, Module.paramInc, concrete, onCore]
  rw [getCvi, bind_apply, hu]
  cases hr : I.mod.incBody x (o.labelMap.getInternalLabel c).1 o.core with
  | err e s => rw [hr] at h; exact h
  | ok a s =>
    rw [hr] at h
    have h2 := he s h
    simp only [Res.mapState, Res.bind_ok, bind_apply, onCore]
    cases hr2 : I.mod.evaluate s with
    | err e s => rw [hr2] at h2; exact h2
    | ok a s => rw [hr2] at h2; exact h2

/-- After a call `_mu` is the buffer `refAfter` says. -/
theorem muRef_call {I : Index} (hI : I.MuUnused) {w : World} (h : ∀ b, w.muRef = some b → w.obj.core.mu.length = (w.bufs b).length)
    (b : ℕ) (c : ℤ) (b' : ℕ) (hb : w.refAfter I b = some b') :
    (getCvi I.mod (.d1 (w.bufs b)) (.int c) w.obj).state.core.mu.length = (w.bufs b').length := by
  have hst : I.storesSample = true := by rcases hI with rfl | rfl | rfl | rfl <;> rfl
  rw [World.refAfter, if_pos hst] at hb
  split at hb
  · rename_i h0
    cases hb
    have := call_state (I := I) (P := MuIs (w.bufs b)) (w.bufs b) c w.obj (muIs_rest hI _ _ _ h0) (muIs_evaluate hI _)
    rw [this]
  · rename_i h0
    split at hb
    · cases hb
    · rename_i e he
      have hs := incBody_mu_err hst (i := (w.obj.labelMap.getInternalLabel c).1) h0 he
      have := call_state (I := I) (P := MuIs w.obj.core.mu) (w.bufs b) c w.obj (by rw [hs]; rfl) (muIs_evaluate hI _)
      rw [this, h b' hb]

theorem run_blind {I : Index} (hI : I.MuUnused) (evs : List Ev) (w : World) (o : Obj) (m : Vec)
    (hm : m.length = o.core.mu.length) (ho : w.obj = ⟨o.labelMap, { o.core with mu := m }⟩)
    (h : ∀ b, w.muRef = some b → w.obj.core.mu.length = (w.bufs b).length) :
    w.run I evs = runCopies I evs w.bufs o := by
  induction evs generalizing w o m with
  | nil => rfl
  | cons ev evs ih =>
    cases ev with
    | write b y =>
      simp only [World.run, runCopies]
      by_cases hy : y.length = (w.bufs b).length
      · rw [World.write, if_pos hy, if_pos hy]
        by_cases hr : w.muRef = some b
        · have hl := h b hr
          rw [ho] at hl
          simp only [hr, if_true]
          refine ih _ o y ?_ (by simp [ho]) ?_
          · rw [hy, ← hl, hm]
          · intro b' hb'
            cases hb'
            simp
        · simp only [hr, if_false]
          refine ih _ o m hm ho ?_
          intro b' hb'
          have : b' ≠ b := by rintro rfl; exact hr hb'
          simp only [Function.update_of_ne this]
          exact h b' hb'
      · rw [World.write, if_neg hy, if_neg hy]
        exact ih w o m hm ho h
    | call b c =>
      simp only [World.run, runCopies]
      obtain ⟨m', h1, h2⟩ := call_blind hI (w.bufs b) c o m hm
      rw [← ho] at h2
      congr 1
      · rw [h2]; cases getCvi I.mod (.d1 (w.bufs b)) (.int c) o <;> rfl
      · refine ih _ (getCvi I.mod (.d1 (w.bufs b)) (.int c) o).state m' h1 ?_ fun b' hb' => muRef_call hI h b c b' hb'
        show (getCvi I.mod (.d1 (w.bufs b)) (.int c) w.obj).state = _
        rw [h2]; cases getCvi I.mod (.d1 (w.bufs b)) (.int c) o <;> rfl

/-- With no array shared, the caller's writes do not reach the object. -/
theorem run_unshared {I : Index} (hI : I.storesSample = false) (evs : List Ev) (w : World) (h : w.muRef = none) :
    w.run I evs = runCopies I evs w.bufs w.obj := by
  induction evs generalizing w with
  | nil => rfl
  | cons ev evs ih =>
    cases ev with
    | write b y =>
      simp only [World.run, runCopies]
      by_cases hy : y.length = (w.bufs b).length
      · rw [World.write, if_pos hy, if_pos hy]
        rw [h, if_neg (by simp)]
        exact ih _ rfl
      · rw [World.write, if_neg hy, if_neg hy, ih _ h]
    | call b c =>
      simp only [World.run, runCopies]
      congr 1
      exact ih _ (by simp [World.refAfter, hI, h])

/-! ## After the second sample -/

/-- There are samples. -/
def Started (s : Core) : Prop := s.nSamples ≠ 0

macro "keeps_started" : tactic => `(tactic|
  repeat' first
    | with_reducible exact keeps_get
    | with_reducible exact keeps_lift _
    | with_reducible exact keeps_raise _
    | with_reducible exact keeps_pure _
    | exact keeps_modify fun _ h => h
    | exact keeps_modify fun _ _ => Nat.succ_ne_zero _
    | with_reducible apply keeps_bind
    | with_reducible apply keeps_ite
    | with_reducible apply keeps_forEach
    | intro _)

theorem started_evaluate (I : Index) : Keeps Started I.mod.evaluate := by
  cases I
  · show Keeps _ CH.evaluate; unfold CH.evaluate; keeps_started
  · show Keeps _ WB.evaluate; unfold WB.evaluate; keeps_started
  · show Keeps _ XB.evaluate; unfold XB.evaluate; keeps_started
  · show Keeps _ DB.evaluate; unfold DB.evaluate; keeps_started
  · show Keeps _ GD43.evaluate; unfold GD43.evaluate; keeps_started
  · show Keeps _ GD53.evaluate; unfold GD53.evaluate; keeps_started
  · show Keeps _ PS.evaluate; unfold PS.evaluate; keeps_started
  · show Keeps _ RCIP.evaluate; unfold RCIP.evaluate; keeps_started
  · show Keeps _ CSIL.evaluate; unfold CSIL.evaluate; keeps_started

theorem started_incBody {I : Index} (hI : I = .CH ∨ I = .WB) (y : Vec) (i : ℕ) : Keeps Started (I.mod.incBody y i) := by
  rcases hI with rfl | rfl
  · show Keeps _ (CH.incBody y i)
    unfold CH.incBody setupOrMu CH.setup CH.incNew CH.incOld CH.finish
    unfold appendN appendCP vstackV vstackG incClusters setN setV setCP setG Base.setup
    keeps_started
  · show Keeps _ (WB.incBody y i)
    unfold WB.incBody setupOrMu WB.setup WB.incNew WB.incOld WB.finish
    unfold appendN appendCP vstackV vstackG incClusters setN setV setCP setG Base.setup
    keeps_started

/-- The first call of `CH` or `WB` returns and leaves one sample, whose array is `_mu`. -/
theorem first_call {I : Index} (hI : I = .CH ∨ I = .WB) (y : Vec) (c : ℤ) :
    (getCvi I.mod (.d1 y) (.int c) I.mod.fresh).state.core.nSamples = 1 ∧
      (getCvi I.mod (.d1 y) (.int c) I.mod.fresh).state.core.mu = y := by
  have hz : (Vec.zeros y.length : Vec).length = y.length := by simp [Vec.zeros]
  have key : ∀ (P : Core → Prop), P (I.mod.incBody y 0 Core.init).state → Keeps P I.mod.evaluate →
      P (getCvi I.mod (.d1 y) (.int c) I.mod.fresh).state.core := by
    intro P h1 h2
    refine call_state y c _ ?_ h2
    have hf : I.mod.fresh = ⟨[], Core.init⟩ := by rcases hI with rfl | rfl <;> rfl
    rw [hf]
    exact h1
  have hd : ∃ z, Vec.sqDist y y = .ok z := by
    simp [Vec.sqDist, Vec.sub, Vec.bin]
  obtain ⟨z, hd⟩ := hd
  refine key (fun s => s.nSamples = 1 ∧ s.mu = y) ?_ ?_
  · rcases hI with rfl | rfl
    · show (CH.incBody y 0 Core.init).state.nSamples = 1 ∧ (CH.incBody y 0 Core.init).state.mu = y
      simp [CH.incBody, setupOrMu, CH.setup, Base.setup, CH.incNew, incClusters, appendN, appendCP, vstackV, vstackG, CH.finish,
        Core.init, attr, Seq.append, Arr2.vstack, Arr2.zeros, CH.sepEntry, Res.state, mapE, Seq.get, Arr2.row, hd, hz]
    · show (WB.incBody y 0 Core.init).state.nSamples = 1 ∧ (WB.incBody y 0 Core.init).state.mu = y
      simp [WB.incBody, setupOrMu, WB.setup, Base.setup, WB.incNew, incClusters, appendN, appendCP, vstackV, vstackG, WB.finish,
        Core.init, attr, Seq.append, Arr2.vstack, Arr2.zeros, WB.sepEntry, Res.state, mapE, Seq.get, Arr2.row, hd, hz]
  · rcases hI with rfl | rfl
    · show Keeps _ CH.evaluate; unfold CH.evaluate; keeps_v
    · show Keeps _ WB.evaluate; unfold WB.evaluate; keeps_v

/-- Once `_mu` has been recomputed nothing is shared. -/
theorem run_started {I : Index} (hI : I = .CH ∨ I = .WB) (evs : List Ev) (w : World) (h : w.muRef = none)
    (hs : Started w.obj.core) : w.run I evs = runCopies I evs w.bufs w.obj := by
  induction evs generalizing w with
  | nil => rfl
  | cons ev evs ih =>
    cases ev with
    | write b y =>
      simp only [World.run, runCopies]
      by_cases hy : y.length = (w.bufs b).length
      · rw [World.write, if_pos hy, if_pos hy]
        rw [h, if_neg (by simp)]
        exact ih _ rfl hs
      · rw [World.write, if_neg hy, if_neg hy, ih _ h hs]
    | call b c =>
      simp only [World.run, runCopies]
      congr 1
      refine ih _ ?_ (call_state _ _ _ (started_incBody hI _ _ _ hs) (started_evaluate I))
      rw [World.refAfter, if_neg hs, h]
      split
      · split <;> rfl
      · rfl

/-- The buffers after some writes. -/
def bufsAfter : List (ℕ × Vec) → (ℕ → Vec) → ℕ → Vec
  | [], bufs => bufs
  | (b, y) :: l, bufs => bufsAfter l (if y.length = (bufs b).length then Function.update bufs b y else bufs)

theorem bufsAfter_length (ws : List (ℕ × Vec)) (bufs : ℕ → Vec) (b : ℕ) : (bufsAfter ws bufs b).length = (bufs b).length := by
  induction ws generalizing bufs with
  | nil => rfl
  | cons p ws ih =>
    obtain ⟨b', y⟩ := p
    rw [bufsAfter, ih]
    split
    · by_cases hb : b = b'
      · subst hb; simp; assumption
      · rw [Function.update_of_ne hb]
    · rfl

theorem bufsAfter_of_ne (ws : List (ℕ × Vec)) (bufs : ℕ → Vec) (b : ℕ) (h : ∀ p ∈ ws, p.1 ≠ b) : bufsAfter ws bufs b = bufs b := by
  induction ws generalizing bufs with
  | nil => rfl
  | cons p ws ih =>
    obtain ⟨b', y⟩ := p
    rw [bufsAfter, ih _ fun p hp => h p (by simp [hp])]
    have := h (b', y) (by simp)
    split
    · rw [Function.update_of_ne (Ne.symm this)]
    · rfl

/-- Writes to buffers that are not `_mu` leave the object alone. -/
theorem run_writes (I : Index) (ws : List (ℕ × Vec)) (rest : List Ev) (w : World) (h : ∀ p ∈ ws, w.muRef ≠ some p.1) :
    w.run I (ws.map (fun p => Ev.write p.1 p.2) ++ rest) = World.run I rest { w with bufs := bufsAfter ws w.bufs } := by
  induction ws generalizing w with
  | nil => rfl
  | cons p ws ih =>
    obtain ⟨b, y⟩ := p
    have hb := h (b, y) (by simp)
    simp only [List.map_cons, List.cons_append, World.run]
    rw [ih]
    · simp only [bufsAfter, World.write, hb, if_false]
      split <;> rfl
    · intro p hp
      have := h p (by simp [hp])
      rw [World.write]; split <;> exact this

theorem runCopies_writes (I : Index) (ws : List (ℕ × Vec)) (rest : List Ev) (bufs : ℕ → Vec) (o : Obj) :
    runCopies I (ws.map (fun p => Ev.write p.1 p.2) ++ rest) bufs o = runCopies I rest (bufsAfter ws bufs) o := by
  induction ws generalizing bufs with
  | nil => rfl
  | cons p ws ih =>
    simp only [List.map_cons, List.cons_append, runCopies, bufsAfter]
    exact ih _

end Verif

import Verif.Proofs.WrongLength

/-!
# One-element samples

An array of length 1 is broadcast: in the update of an existing cluster it has the same effect as the array that repeats its element.
-/

namespace Verif
open Spec Py

variable {d : ℕ}

theorem zipWith_replicate_right (f : XR → XR → XR) (l : Vec) (b : XR) :
    List.zipWith f l (List.replicate l.length b) = l.map fun x => f x b := by
  induction l with
  | nil => rfl
  | cons a l ih => simp [List.replicate_succ, ih]

theorem zipWith_replicate_left (f : XR → XR → XR) (l : Vec) (b : XR) :
    List.zipWith f (List.replicate l.length b) l = l.map fun x => f b x := by
  induction l with
  | nil => rfl
  | cons a l ih => simp [List.replicate_succ, ih]

theorem bin_one_right (f : XR → XR → XR) (a : Vec) (b : XR) :
    Vec.bin f a [b] = Vec.bin f a (List.replicate a.length b) := by
  rw [Vec.bin, Vec.bin, if_pos (c := a.length = (List.replicate a.length b).length) (by simp), zipWith_replicate_right]
  by_cases h : a.length = 1
  · rw [if_pos (by simpa using h)]
    obtain ⟨x, rfl⟩ := List.length_eq_one_iff.mp h
    rfl
  · rw [if_neg (by simpa using h), if_neg h, if_pos (by simp)]
    rfl

theorem bin_one_left (f : XR → XR → XR) (a : Vec) (b : XR) :
    Vec.bin f [b] a = Vec.bin f (List.replicate a.length b) a := by
  rw [Vec.bin, Vec.bin, if_pos (c := (List.replicate a.length b).length = a.length) (by simp), zipWith_replicate_left]
  by_cases h : a.length = 1
  · rw [if_pos (by simpa using h.symm)]
    obtain ⟨x, rfl⟩ := List.length_eq_one_iff.mp h
    rfl
  · rw [if_neg (by simpa using Ne.symm h), if_pos (by simp)]
    rfl

theorem runningMean_one {n : ℕ} {v : Vec} (h : v.length = d) (b : XR) :
    runningMean n v [b] = runningMean n v (List.replicate d b) := by
  subst h
  have := bin_one_right (· + ·) (Vec.smul (.fin (1 - 1 / (n : ℝ))) v) (.fin (1 / (n : ℝ)) * b)
  rw [smul_length] at this
  simpa [runningMean, Vec.add, Vec.smul] using this

theorem sub_one {v : Vec} (h : v.length = d) (b : XR) : Vec.sub [b] v = Vec.sub (List.replicate d b) v := by
  subst h
  exact bin_one_left _ _ _

theorem add_one {v : Vec} (h : v.length = d) (b : XR) : Vec.add v [b] = Vec.add v (List.replicate d b) := by
  subst h
  exact bin_one_right _ _ _

theorem bin_length {f : XR → XR → XR} {a b c : Vec} (h : Vec.bin f a b = .ok c) (hab : a.length = b.length) :
    c.length = a.length := by
  rw [Vec.bin, if_pos hab] at h
  cases h
  simp [hab]

theorem runningMean_rep_length {n : ℕ} {v w : Vec} {b : XR} (h : v.length = d)
    (hw : runningMean n v (List.replicate d b) = .ok w) : w.length = d := by
  have := bin_length hw (by simp [h])
  simpa [h] using this

theorem except_bind_congr {α β : Type} {x : Except PyErr α} {f g : α → Except PyErr β} (h : ∀ a, x = .ok a → f a = g a) :
    (x >>= f) = (x >>= g) := by
  cases x with
  | error e => rfl
  | ok a => exact h a rfl

theorem oldStats_one {s : Core} {i : ℕ} (b : XR) (hr : s.v.Rect) (hc : s.v.cols = d) :
    oldStats [b] i s = oldStats (List.replicate d b) i s := by
  unfold oldStats
  refine except_bind_congr fun n _ => except_bind_congr fun r hrow => ?_
  have hl : r.length = d := (row_length hr hrow).trans hc
  rw [runningMean_one hl]
  refine except_bind_congr fun w hw => except_bind_congr fun _ _ => ?_
  rw [sub_one (runningMean_rep_length hl hw)]

/-- The objects on which a one-element sample for the existing cluster `i` is considered. -/
structure OldOk (d i : ℕ) (s : Core) : Prop where
  rect : s.v.Rect
  cols : s.v.cols = d
  old : i < s.nClusters

theorem agree_bind {σ α β : Type} {P : σ → Prop} {x : Py σ α} {f g : α → Py σ β} (hx : Keeps P x)
    (h : ∀ a s, P s → f a s = g a s) : ∀ s, P s → (x >>= f) s = (x >>= g) s := by
  intro s hs
  have := hx s hs
  rw [bind_apply, bind_apply]
  cases hr : x s with
  | err e s' => rfl
  | ok a s' => rw [hr] at this; exact h a s' this

theorem setupOrMu_one {s : Core} {setupC : Vec → Py Core Unit} (b : XR) (h0 : s.nSamples ≠ 0) (hm : s.mu.length = d) :
    setupOrMu setupC [b] s = setupOrMu setupC (List.replicate d b) s := by
  rw [setupOrMu, setupOrMu, bind_apply, bind_apply, get_apply, Res.bind_ok, Res.bind_ok, if_neg h0, if_neg h0,
    runningMean_one hm]

theorem setupOrMu_old {s s1 : Core} {setupC : Vec → Py Core Unit} {y : Vec} {i : ℕ} (h0 : s.nSamples ≠ 0)
    (h : OldOk d i s) (h1 : setupOrMu setupC y s = .ok () s1) : OldOk d i s1 := by
  rw [setupOrMu, bind_apply, get_apply, Res.bind_ok, if_neg h0] at h1
  have := keeps_bind (P := OldOk d i) (keeps_lift (runningMean (s.nSamples + 1) s.mu y))
    (f := fun mu => Py.modify fun s => { s with mu := mu })
    (fun mu => keeps_modify fun s h => ⟨h.rect, h.cols, h.old⟩) s h
  rw [h1] at this
  exact this

/-- Setup, branch and remainder of an update whose two halves treat two samples alike. -/
theorem inc_agree {s : Core} {i : ℕ} {y z : Vec} {su : Vec → Py Core Unit} {new old : Vec → Py Core Unit}
    {f : ℕ → Unit → Py Core Unit} (hy : su y s = su z s) (hk : ∀ s1, su z s = .ok () s1 → OldOk d i s1)
    (ho : ∀ s, OldOk d i s → old y s = old z s) :
    (Py.get >>= fun s0 : Core => su y >>= fun _ => Py.get >>= fun s : Core =>
      (if (i : ℤ) > (s.nClusters : ℤ) - 1 then new y else old y) >>= f s0.nSamples) s =
    (Py.get >>= fun s0 : Core => su z >>= fun _ => Py.get >>= fun s : Core =>
      (if (i : ℤ) > (s.nClusters : ℤ) - 1 then new z else old z) >>= f s0.nSamples) s := by
  simp only [bind_apply, get_apply, Res.bind_ok, hy]
  cases hr : su z s with
  | err e s' => rfl
  | ok a s' =>
    have h := hk s' hr
    have hn : ¬ ((i : ℤ) > (s'.nClusters : ℤ) - 1) := by have := h.old; omega
    simp only [Res.bind_ok, ite_app, if_neg hn, ho s' h]

/-- **Broadcasting**: for the classes other than cSIL a one-element sample for an existing cluster has exactly the effect of
the sample that repeats the element. -/
theorem incBody_one {I : Index} (hI : I ≠ .cSIL) {s : Core} {i : ℕ} (b : XR) (h0 : s.nSamples ≠ 0)
    (hm : I ≠ .PS → I ≠ .rCIP → s.mu.length = d) (h : OldOk d i s) :
    I.mod.incBody [b] i s = I.mod.incBody (List.replicate d b) i s := by
  have hif : ∀ {setupC : Vec → Py Core Unit} {y : Vec}, setupIfFirst setupC y s = .ok () s := by
    intro setupC y
    rw [setupIfFirst, bind_apply, get_apply, Res.bind_ok, if_neg h0]; rfl
  cases I
  · exact inc_agree (i := i) (su := setupOrMu CH.setup) (old := fun y => CH.incOld y i) (new := fun y => CH.incNew y)
      (f := fun n _ => CH.finish (n + 1))
      (setupOrMu_one b h0 (hm (by simp) (by simp))) (fun s1 h1 => setupOrMu_old h0 h h1) fun t ht => by
      simp only [CH.incOld, bind_apply, get_apply, Res.bind_ok, oldStats_one b ht.rect ht.cols]
  · exact inc_agree (i := i) (su := setupOrMu WB.setup) (old := fun y => WB.incOld y i) (new := fun y => WB.incNew y)
      (f := fun n _ => WB.finish (n + 1))
      (setupOrMu_one b h0 (hm (by simp) (by simp))) (fun s1 h1 => setupOrMu_old h0 h h1) fun t ht => by
      simp only [WB.incOld, bind_apply, get_apply, Res.bind_ok, oldStats_one b ht.rect ht.cols]
  · exact inc_agree (i := i) (su := setupOrMu XB.setup) (old := fun y => XB.incOld y i) (new := fun y => XB.incNew y i)
      (f := fun n _ => Py.modify fun s => { s with nSamples := n + 1 })
      (setupOrMu_one b h0 (hm (by simp) (by simp))) (fun s1 h1 => setupOrMu_old h0 h h1) fun t ht => by
      simp only [XB.incOld, bind_apply, get_apply, Res.bind_ok, oldStats_one b ht.rect ht.cols]
  · exact inc_agree (i := i) (su := setupOrMu DB.setup) (old := fun y => DB.incOld y i) (new := fun y => DB.incNew y i)
      (f := fun n _ => Py.modify fun s => { s with nSamples := n + 1 })
      (setupOrMu_one b h0 (hm (by simp) (by simp))) (fun s1 h1 => setupOrMu_old h0 h h1) fun t ht => by
      simp only [DB.incOld, bind_apply, get_apply, Res.bind_ok, oldStats_one b ht.rect ht.cols]
  · exact inc_agree (i := i) (su := setupOrMu GD43.setup) (old := fun y => GD43.incOld y i) (new := fun y => GD43.incNew y i)
      (f := fun n _ => Py.modify fun s => { s with nSamples := n + 1 })
      (setupOrMu_one b h0 (hm (by simp) (by simp))) (fun s1 h1 => setupOrMu_old h0 h h1) fun t ht => by
      simp only [GD43.incOld, bind_apply, get_apply, Res.bind_ok, oldStats_one b ht.rect ht.cols]
  · exact inc_agree (i := i) (su := setupOrMu GD53.setup) (old := fun y => GD53.incOld y i) (new := fun y => GD53.incNew y i)
      (f := fun n _ => Py.modify fun s => { s with nSamples := n + 1 })
      (setupOrMu_one b h0 (hm (by simp) (by simp))) (fun s1 h1 => setupOrMu_old h0 h h1) fun t ht => by
      simp only [GD53.incOld, bind_apply, get_apply, Res.bind_ok, oldStats_one b ht.rect ht.cols]
  · refine inc_agree (i := i) (d := d) (y := [b]) (z := List.replicate d b) (su := setupIfFirst PS.setup) (f := fun n _ => Py.modify fun s => { s with nSamples := n + 1 })
      (old := fun y => PS.incOld y i) (new := fun y => PS.incNew y i)
      (hif.trans hif.symm) (fun s1 h1 => ?_) fun t ht => ?_
    · rw [hif] at h1; cases h1; exact h
    · simp only [PS.incOld, bind_apply, get_apply, Res.bind_ok, Py.lift]
      cases t.n.get i with
      | error e => rfl
      | ok n =>
        cases hrow : t.v.row i with
        | error e => rfl
        | ok r => simp only [Res.bind_ok, runningMean_one ((row_length ht.rect hrow).trans ht.cols)]
  · have key : ∀ t, OldOk d i t → RCIP.incOld [b] i t = RCIP.incOld (List.replicate d b) i t := by
      intro t ht
      simp only [RCIP.incOld, bind_apply, get_apply, Res.bind_ok, Py.lift]
      cases t.n.get i with
      | error e => rfl
      | ok n =>
        cases hrow : t.v.row i with
        | error e => rfl
        | ok r =>
          have hl := (row_length ht.rect hrow).trans ht.cols
          simp only [Res.bind_ok, runningMean_one hl, sub_one hl]
    have hn : ¬ ((i : ℤ) > (s.nClusters : ℤ) - 1) := by have := h.old; omega
    have hk := key { s with constant := RCIP.normConst s.dim } ⟨h.rect, h.cols, h.old⟩
    show RCIP.incBody [b] i s = RCIP.incBody (List.replicate d b) i s
    simp only [RCIP.incBody, bind_apply, get_apply, Res.bind_ok, hif, modify_apply, ite_app, if_neg hn, hk]
  · exact absurd rfl hI

theorem enc_const (a : ℝ) : enc (fun _ : Fin d => a) = List.replicate d (XR.fin a) := by
  rw [enc, List.ofFn_const]

namespace CSIL

theorem colOldEntry_one {cp : XR} {n : ℕ} {g v : Vec} (h : v.length = d) (b : XR) :
    colOldEntry cp n g [b] v = colOldEntry cp n g (List.replicate d b) v := by
  rw [colOldEntry, colOldEntry, sub_one h]

/-- cSIL with a one-element sample for an existing cluster: as with the repeated element, except for `_CP`. -/
theorem incOld_one {S : Stream d} {s : Core} (h : Mid S s) (a : ℝ) {c : ℤ} (hc : c ∈ keys S) :
    ∃ cp, incOld [XR.fin a] ((keys S).idxOf c) s =
      .ok () { tabledS (keys S) (S ++ [(fun _ => a, c)]) s with CP := cp } := by
  have nv := h.tables.nv
  have hlen : ∀ w : Pt d, (enc w).length = d := fun w => by simp
  set x : Pt d := fun _ => a with hx
  have hex : enc x = List.replicate d (XR.fin a) := enc_const a
  refine ⟨some ⟨false, (keys S).map fun e => if e = c then XR.fin (sqSum S c) + XR.fin (a * a) else XR.fin (sqSum S e)⟩, ?_⟩
  rw [incOld]
  refine get_bind (lift_bind (by rw [nv.n]; exact get_rep hc) (lift_bind (by rw [nv.v]; exact row_rep hc)
    (lift_bind (by rw [runningMean_one (hlen _), ← hex]; exact centroid_step S x c)
      (lift_bind (by rw [h.tables.cp]; rfl) (lift_bind (get_rep hc)
      (lift_bind (a := XR.fin (a * a)) (by simp [Vec.inner]) (lift_bind (by rw [h.tables.g]; rfl) (lift_bind (row_rep hc)
        (lift_bind (by rw [add_one (hlen _), ← hex]; exact add_enc _ _)
          (lift_bind (by rw [colOldEntry_one (hlen _), ← hex]; exact own_rep S x c) ?_))))))))))
  refine lift_bind (a := (keys S).map fun a => .fin (entry (S ++ [(x, c)]) c a)) ?_ ?_
  · rw [colOld, nv.k]
    apply mapE_range_keys (keys_nodup S)
    intro a ha
    by_cases e : a = c
    · subst e; simp
    · rw [if_neg fun h' => e ((idxOf_inj ha).mp h')]
      have := colOld_rep (keysOf_keys S) h.tables x ha e hc
      rw [nv.v, row_rep ha, except_bind_ok] at this ⊢
      rw [colOldEntry_one (hlen _), ← hex]
      exact this
  refine lift_bind (a := (keys S).map fun a => .fin (entry (S ++ [(x, c)]) a c)) ?_ ?_
  · rw [rowOld, nv.k]
    apply mapE_range_keys (keys_nodup S)
    intro a ha
    by_cases e : a = c
    · subst e; simp
    · rw [if_neg fun h' => e ((idxOf_inj ha).mp h')]
      exact rowEntry_rep (keysOf_keys S) h.tables x ha e
  refine bind_ok_of (setN_rep (keys_nodup S) hc nv.n (f' := size (S ++ [(x, c)])) (size_append_self S x c).symm
    fun a _ ha => size_append_ne S x ha) ?_
  refine bind_ok_of (setV_rep (keys_nodup S) hc nv.v (f' := fun a => enc (centroid (S ++ [(x, c)]) a))
    rfl (by simp) fun a _ ha => by rw [centroid_append_ne S x ha]) ?_
  refine bind_ok_of (setCP_rep (keys_nodup S) hc h.tables.cp
    (f' := fun e => if e = c then XR.fin (sqSum S c) + XR.fin (a * a) else XR.fin (sqSum S e))
    (by simp) fun a _ ha => by simp [ha]) ?_
  refine bind_ok_of (setG_rep (keys_nodup S) hc h.tables.g (f' := fun a => enc (vecSum (S ++ [(x, c)]) a))
    (by rw [vecSum_append_self]) (by simp) fun a _ ha => by rw [vecSum_append_ne S x ha]) ?_
  refine (setS_rep (g' := fun a b => .fin (entry (S ++ [(x, c)]) a b)) (keys_nodup S) hc
    (g := fun a b => .fin (entry S a b)) ?_ ?_).trans ?_
  · exact h.Sm (List.ne_nil_of_mem hc)
  · intro a _ b _ ha hb
    rw [entry_append_ne S x ha hb]
  · simp [tabledS, ← nv.k]

end CSIL

theorem rep_core {I : Index} {S : Stream d} {s : Core} (h : I.Rep S s) :
    RepNV false (keys S) S s ∧ s.nSamples = S.length ∧ (I ≠ .PS → I ≠ .rCIP → I ≠ .cSIL → s.mu = enc (mean S)) := by
  cases I
  · exact ⟨(CH.Rep.toRepMu h).nv, (CH.Rep.toRepMu h).nSamples, fun _ _ _ => (CH.Rep.toRepMu h).mu⟩
  · exact ⟨(WB.Rep.toRepMu h).nv, (WB.Rep.toRepMu h).nSamples, fun _ _ _ => (WB.Rep.toRepMu h).mu⟩
  · exact ⟨(XB.Rep.toRepMu h).nv, (XB.Rep.toRepMu h).nSamples, fun _ _ _ => (XB.Rep.toRepMu h).mu⟩
  · exact ⟨(DB.Rep.toRepMu h).nv, (DB.Rep.toRepMu h).nSamples, fun _ _ _ => (DB.Rep.toRepMu h).mu⟩
  · exact ⟨(GD43.Rep.toRepMu h).nv, (GD43.Rep.toRepMu h).nSamples, fun _ _ _ => (GD43.Rep.toRepMu h).mu⟩
  · exact ⟨(GD53.Rep.toRepMu h).nv, (GD53.Rep.toRepMu h).nSamples, fun _ _ _ => (GD53.Rep.toRepMu h).mu⟩
  · exact ⟨PS.Rep.nv h, PS.Rep.nSamples h, fun h => absurd rfl h⟩
  · exact ⟨RCIP.Rep.nv h, RCIP.Rep.nSamples h, fun _ h => absurd rfl h⟩
  · exact ⟨(CSIL.Rep.tables h).nv, CSIL.Rep.nSamples h, fun _ _ h => absurd rfl h⟩

theorem rect_rep {I : Index} {S : Stream d} {s : Core} (h : I.Rep S s) : s.v.Rect ∧ s.v.cols = d := by
  have := (rep_core h).1.v
  rw [this]
  refine ⟨fun r hr => ?_, rfl⟩
  obtain ⟨c, _, rfl⟩ := List.mem_map.mp hr
  simp

/-- A call with a one-element sample and a known label succeeds and returns what the repeated element would give. -/
theorem call_one {I : Index} (hd : DimOk I d) {S : Stream d} {o : Obj} (hI : Inv I.mod (I.Rep (d := d)) S o) (a : ℝ) {c : ℤ}
    (hc : c ∈ labels S) :
    ∃ o', getCvi I.mod (.d1 [XR.fin a]) (.int c) o = .ok (I.actual (S ++ [(fun _ => a, c)])) o' := by
  have hk : c ∈ keys S := mem_keys.mpr hc
  rcases hI with ⟨rfl, _⟩ | ⟨hne, hmap, hr⟩
  · simp [labels] at hc
  have hl : o.core.nSamples ≠ 0 := by rw [(rep_core hr).2.1]; simpa using hne
  have hilt := List.idxOf_lt_length_of_mem hk
  have hint : (o.labelMap.getInternalLabel c) = ((keys S).idxOf c, mapOf (keys S)) := by
    rw [hmap, getInternalLabel_mapOf, addKey_old hk]
  have hok : OldOk d ((keys S).idxOf c) o.core :=
    ⟨(rect_rep hr).1, (rect_rep hr).2, by rw [(rep_core hr).1.k]; exact hilt⟩
  suffices ∃ s2, (I.mod.incBody [XR.fin a] ((keys S).idxOf c) >>= fun _ => I.mod.evaluate) o.core = .ok () s2 ∧
      s2.criterion = I.actual (S ++ [(fun _ => a, c)]) by
    obtain ⟨s2, h2, hv⟩ := this
    refine ⟨⟨mapOf (keys S), s2⟩, ?_⟩
    rw [bind_apply] at h2
    cases h1 : I.mod.incBody [XR.fin a] ((keys S).idxOf c) o.core with
    | err e s' => rw [h1] at h2; cases h2
    | ok u s1 =>
      rw [h1, Res.bind_ok] at h2
      have e : I.mod.update (.d1 [XR.fin a]) (.int c) o = .ok () ⟨mapOf (keys S), s1⟩ := by
        simp [Module.update, Module.paramInc, concrete, hint, onCore, h1, Res.mapState]
      simp [getCvi, e, onCore, h2, Res.mapState, hv]
  by_cases hcs : I = .cSIL
  · subst hcs
    have hm : CSIL.Mid S o.core := ⟨CSIL.Rep.tables hr, fun _ => CSIL.Rep.Sm hr, CSIL.Rep.isSetup hr⟩
    obtain ⟨cp, hcp⟩ := CSIL.incOld_one hm a hk
    have hbody : ∃ s1, CSIL.incBody [XR.fin a] ((keys S).idxOf c) o.core = .ok () s1 ∧
        s1.nClusters = (keys S).length ∧ s1.Sm = sqMat (keys S) fun p q => .fin (CSIL.entry (S ++ [(fun _ => a, c)]) p q) := by
      have e1 : setupIfFirst CSIL.setup [XR.fin a] o.core = .ok () o.core := by
        rw [setupIfFirst]
        apply get_bind
        rw [if_neg hl, pure_apply]
      have e2 : (if ((keys S).idxOf c : ℤ) > (o.core.nClusters : ℤ) - 1 then CSIL.incNew [XR.fin a] ((keys S).idxOf c)
          else CSIL.incOld [XR.fin a] ((keys S).idxOf c)) o.core =
          .ok () { CSIL.tabledS (keys S) (S ++ [(fun _ => a, c)]) o.core with CP := cp } := by
        rw [if_neg (by rw [isNew_iff (rep_core hr).1.k]; simpa using hk)]
        exact hcp
      exact ⟨_, get_bind (bind_ok_of e1 (get_bind (bind_ok_of e2 rfl))), rfl, rfl⟩
    obtain ⟨s1, h1, hk1, hS1⟩ := hbody
    have hks : KeysOf (keys S) (S ++ [((fun _ => a : Pt d), c)]) := by
      have := keysOf_keys (S ++ [((fun _ => a : Pt d), c)])
      rwa [keys_append, addKey_old hk] at this
    obtain ⟨cs, he⟩ := CSIL.evaluate_rep hks hk1 hS1
    exact ⟨_, bind_ok_of h1 he, rfl⟩
  · have hbc := incBody_one (d := d) hcs (i := (keys S).idxOf c) (XR.fin a) hl
      (fun h1 h2 => by rw [(rep_core hr).2.2 h1 h2 hcs]; simp) hok
    rw [← enc_const] at hbc
    obtain ⟨s1, h1, hR1⟩ := (I.refines hd).step S o.core (fun _ => a) c (Or.inr ⟨hne, hr⟩)
    obtain ⟨s2, h2, hV, _⟩ := (I.refines hd).eval _ s1 (by simp) hR1
    exact ⟨s2, bind_ok_of (hbc.trans h1) h2, hV⟩

end Verif

import Verif.Proofs.NaN4
import Verif.Proofs.Extrema

/-! # A NaN in the tables reaches the value -/

namespace Verif
open Py

theorem mapE_mem {α β : Type} {f : α → Except PyErr β} {l : List α} {r : List β} (h : mapE f l = .ok r) {a : α} (ha : a ∈ l) :
    ∃ b ∈ r, f a = .ok b := by
  induction l generalizing r with
  | nil => cases ha
  | cons a' l ih =>
    rw [mapE] at h
    obtain ⟨b, hb, h⟩ := except_bind_inv h
    obtain ⟨bs, hbs, h⟩ := except_bind_inv h
    cases h
    rcases List.mem_cons.1 ha with rfl | ha
    · exact ⟨b, by simp, hb⟩
    · obtain ⟨b', hb', e⟩ := ih hbs ha
      exact ⟨b', by simp [hb'], e⟩

theorem mapE_mem_of {α β : Type} {f : α → Except PyErr β} {l : List α} {r : List β} (h : mapE f l = .ok r) {a : α} (ha : a ∈ l)
    {b : β} (hb : f a = .ok b) : b ∈ r := by
  obtain ⟨b', hb', e⟩ := mapE_mem h ha
  rw [hb] at e
  cases e
  exact hb'

theorem mapE_getElem {α β : Type} {f : α → Except PyErr β} {l : List α} {r : List β} (h : mapE f l = .ok r) :
    r.length = l.length ∧ ∀ (i : ℕ) (a : α), l[i]? = some a → ∃ b, r[i]? = some b ∧ f a = .ok b := by
  induction l generalizing r with
  | nil => cases h; simp
  | cons a' l ih =>
    rw [mapE] at h
    obtain ⟨b, hb, h⟩ := except_bind_inv h
    obtain ⟨bs, hbs, h⟩ := except_bind_inv h
    cases h
    obtain ⟨h1, h2⟩ := ih hbs
    refine ⟨by simp [h1], fun i a hi => ?_⟩
    cases i with
    | zero => cases hi; exact ⟨b, rfl, hb⟩
    | succ i => exact h2 i a (by simpa using hi)

theorem triu_nan {D : Arr2} {k i j : ℕ} {vals : Vec} (h : D.triu k = .ok vals) (hij : i < j) (hj : j < k) (hn : D.get i j = .ok .nan) :
    XR.nan ∈ vals :=
  mapE_mem_of (a := (i, j)) h (mem_triuPairs.2 ⟨hij, hj⟩) hn

theorem amin_nan_inv {v : Vec} {x : XR} (h : Vec.amin v = .ok x) (hn : XR.nan ∈ v) : x = .nan := by
  rw [amin_nan hn] at h
  exact (Except.ok.inj h).symm

theorem amax_nan_inv {v : Vec} {x : XR} (h : Vec.amax v = .ok x) (hn : XR.nan ∈ v) : x = .nan := by
  rw [amax_nan hn] at h
  exact (Except.ok.inj h).symm

theorem lift_inv {σ α : Type} {x : Except PyErr α} {s s' : σ} {a : α} (h : Py.lift x s = .ok a s') : x = .ok a ∧ s = s' := by
  cases x with
  | error e => cases h
  | ok b => cases h; exact ⟨rfl, rfl⟩

/-! ## Square matrices -/

/-- Shape `(n, n)`. -/
def Sq (n : ℕ) (A : Arr2) : Prop := A.rows.length = n ∧ A.cols = n ∧ ∀ r ∈ A.rows, r.length = n

variable {n : ℕ} {A B C : Arr2}

theorem Sq.get (h : Sq n A) {i j : ℕ} (hi : i < n) (hj : j < n) : A.get i j = .ok ((A.rows.getD i []).getD j 0) := by
  have h1 : i < A.rows.length := by rw [h.1]; exact hi
  have h2 : A.rows[i].length = n := h.2.2 _ (List.getElem_mem h1)
  simp only [Arr2.get, List.getElem?_eq_getElem h1, List.getD_eq_getElem?_getD, Option.getD_some]
  rw [List.getElem?_eq_getElem (by omega)]
  simp

theorem upperTri_sq {f : ℕ → ℕ → Except PyErr XR} (h : Arr2.upperTri n f = .ok A) :
    Sq n A ∧ ∀ i j x, i < j → j < n → f i j = .ok x → A.get i j = .ok x := by
  rw [Arr2.upperTri] at h
  obtain ⟨rs, hr, h⟩ := except_bind_inv h
  cases h
  obtain ⟨h1, h2⟩ := mapE_getElem hr
  refine ⟨⟨by simpa using h1, rfl, fun r hmem => ?_⟩, fun i j x hij hj hx => ?_⟩
  · obtain ⟨i, _, e⟩ := mapE_inv hr r hmem
    simpa using (mapE_getElem e).1
  · obtain ⟨row, e1, e2⟩ := h2 i i (List.getElem?_range (hij.trans hj))
    obtain ⟨b, e3, e4⟩ := (mapE_getElem e2).2 j j (List.getElem?_range hj)
    rw [if_pos hij, hx] at e4
    cases e4
    simp [Arr2.get, e1, e3]

theorem transpose_sq (h : Sq n A) : Sq n A.transpose ∧ ∀ i j, i < n → j < n → A.transpose.get i j = A.get j i := by
  have hs : Sq n A.transpose := by
    refine ⟨by simp [Arr2.transpose, h.2.1], h.1, fun r hr => ?_⟩
    obtain ⟨j, _, rfl⟩ := List.mem_map.1 hr
    simp [h.1]
  refine ⟨hs, fun i j hi hj => ?_⟩
  rw [hs.get hi hj, h.get hj hi]
  have h1 : i < A.cols := by rw [h.2.1]; exact hi
  have h2 : j < A.rows.length := by rw [h.1]; exact hj
  simp [Arr2.transpose, List.getD_eq_getElem?_getD, h1, h2]

theorem add_sq (hA : Sq n A) (hB : Sq n B) (h : A.add B = .ok C) :
    Sq n C ∧ ∀ i j x y, i < n → j < n → A.get i j = .ok x → B.get i j = .ok y → C.get i j = .ok (x + y) := by
  have hr : ∀ {X : Arr2}, Sq n X → X.broadcastTo n n = .ok ⟨n, X.rows⟩ := by
    intro X hX
    simp [Arr2.broadcastTo, hX.1, hX.2.1]
  have e1 : (if A.rows.length = 1 then B.rows.length else A.rows.length) = n := by rw [hA.1, hB.1]; split <;> rfl
  have e2 : (if A.cols = 1 then B.cols else A.cols) = n := by rw [hA.2.1, hB.2.1]; split <;> rfl
  rw [Arr2.add, Arr2.bin] at h
  simp only [e1, e2, hr hA, hr hB, except_bind_ok, except_pure, Except.ok.injEq] at h
  subst h
  have hC : Sq n ⟨n, List.zipWith (fun x y => List.zipWith (· + ·) x y) A.rows B.rows⟩ := by
    refine ⟨by simp [hA.1, hB.1], rfl, fun r hmem => ?_⟩
    obtain ⟨i, hi, rfl⟩ := List.getElem_of_mem hmem
    simp only [List.length_zipWith] at hi
    rw [List.getElem_zipWith, List.length_zipWith, hA.2.2 _ (List.getElem_mem _), hB.2.2 _ (List.getElem_mem _), Nat.min_self]
  refine ⟨hC, fun i j x y hi hj hx hy => ?_⟩
  rw [hA.get hi hj] at hx
  rw [hB.get hi hj] at hy
  cases hx
  cases hy
  rw [hC.get hi hj]
  have h1 : i < A.rows.length := by rw [hA.1]; exact hi
  have h2 : i < B.rows.length := by rw [hB.1]; exact hi
  have h3 : j < A.rows[i].length := by rw [hA.2.2 _ (List.getElem_mem _)]; exact hj
  have h4 : j < B.rows[i].length := by rw [hB.2.2 _ (List.getElem_mem _)]; exact hj
  simp [List.getD_eq_getElem?_getD, h1, h2, h3, h4]

theorem col_mem {A : Arr2} {i j : ℕ} {c : Vec} {x : XR} (hc : A.col j = .ok c) (hx : A.get i j = .ok x) : c[i]? = some x ∧ x ∈ c := by
  rw [Arr2.col] at hc
  split at hc
  · rw [Arr2.get] at hx
    cases hr : A.rows[i]? with
    | none => rw [hr] at hx; cases hx
    | some r =>
      rw [hr] at hx
      obtain ⟨b, hb, e⟩ := (mapE_getElem hc).2 i r hr
      cases hj : r[j]? with
      | none => simp only [hj] at hx; cases hx
      | some y =>
        simp only [hj] at hx e
        cases hx
        cases e
        exact ⟨hb, List.mem_of_getElem? hb⟩
  · cases hc

/-! ## The evaluations -/

section
variable {s s' : Core} {i j : ℕ}

theorem CH.evaluate_nan (e : CH.evaluate s = .ok () s') (hk : 1 < s'.nClusters) (h : XR.nan ∈ s'.SEP) : s'.criterion = .nan := by
  rw [CH.evaluate, bind_apply, get_apply, Res.bind_ok] at e
  split at e
  · obtain ⟨_, _, e1, e⟩ := py_bind_inv e
    obtain ⟨_, rfl⟩ := lift_inv e1
    cases e
    simp only at h ⊢
    rw [XR.sum_eq_nan h, XR.nan_div, XR.nan_mul]
  · cases e
    contradiction

theorem WB.evaluate_nan (e : WB.evaluate s = .ok () s') (hk : 1 < s'.nClusters) (h : XR.nan ∈ s'.SEP) : s'.criterion = .nan := by
  rw [WB.evaluate, bind_apply, get_apply, Res.bind_ok] at e
  split at e
  · obtain ⟨_, _, e1, e⟩ := py_bind_inv e
    obtain ⟨_, rfl⟩ := lift_inv e1
    cases e
    simp only at h ⊢
    rw [XR.sum_eq_nan h, XR.div_nan, XR.nan_mul]
  · cases e
    contradiction

theorem XB.evaluate_nan (e : XB.evaluate s = .ok () s') (hij : i < j) (hj : j < s'.nClusters) (hr : s'.D.rows.length = s'.nClusters)
    (h : s'.D.get i j = .ok .nan) : s'.criterion = .nan := by
  rw [XB.evaluate, bind_apply, get_apply, Res.bind_ok] at e
  split at e
  · obtain ⟨_, _, e1, e⟩ := py_bind_inv e
    obtain ⟨_, rfl⟩ := lift_inv e1
    obtain ⟨_, _, e2, e⟩ := py_bind_inv e
    cases e2
    obtain ⟨vals, _, e3, e⟩ := py_bind_inv e
    obtain ⟨f3, rfl⟩ := lift_inv e3
    obtain ⟨m, _, e4, e⟩ := py_bind_inv e
    obtain ⟨f4, rfl⟩ := lift_inv e4
    cases e
    simp only at h hj hr ⊢
    have : m = .nan := amin_nan_inv f4 (triu_nan f3 hij (by rw [hr]; exact hj) h)
    rw [this, XR.mul_nan, XR.div_nan]
  · cases e
    simp only at hj
    omega

theorem minUpper_nan {k : ℕ} {D : Arr2} {x : XR} (e : GD43.minUpper k D = .ok x) (hij : i < j) (hj : j < k) (h : D.get i j = .ok .nan) :
    x = .nan := by
  rw [GD43.minUpper] at e
  split at e
  · obtain ⟨vals, e1, e⟩ := except_bind_inv e
    exact amin_nan_inv e (triu_nan e1 hij hj h)
  · cases e

theorem GD43.evaluate_nan (e : GD43.evaluate s = .ok () s') (hij : i < j) (hj : j < s'.nClusters) (h : s'.D.get i j = .ok .nan) :
    s'.criterion = .nan := by
  rw [GD43.evaluate, bind_apply, get_apply, Res.bind_ok] at e
  split at e
  · obtain ⟨_, _, e1, e⟩ := py_bind_inv e
    obtain ⟨_, rfl⟩ := lift_inv e1
    obtain ⟨_, _, e2, e⟩ := py_bind_inv e
    obtain ⟨_, rfl⟩ := lift_inv e2
    obtain ⟨_, _, e2, e⟩ := py_bind_inv e
    cases e2
    obtain ⟨m, _, e3, e⟩ := py_bind_inv e
    obtain ⟨f3, rfl⟩ := lift_inv e3
    cases e
    simp only at h hj ⊢
    rw [minUpper_nan f3 hij hj h, XR.nan_div]
  · cases e
    simp only at hj
    omega

theorem GD53.evaluate_nan (e : GD53.evaluate s = .ok () s') (hij : i < j) (hj : j < s'.nClusters) (h : s'.D.get i j = .ok .nan) :
    s'.criterion = .nan := by
  rw [GD53.evaluate, bind_apply, get_apply, Res.bind_ok] at e
  split at e
  · obtain ⟨_, _, e1, e⟩ := py_bind_inv e
    obtain ⟨_, rfl⟩ := lift_inv e1
    obtain ⟨_, _, e2, e⟩ := py_bind_inv e
    obtain ⟨_, rfl⟩ := lift_inv e2
    obtain ⟨_, _, e2, e⟩ := py_bind_inv e
    cases e2
    obtain ⟨m, _, e3, e⟩ := py_bind_inv e
    obtain ⟨f3, rfl⟩ := lift_inv e3
    cases e
    simp only at h hj ⊢
    rw [minUpper_nan f3 hij hj h, XR.nan_div]
  · cases e
    simp only at hj
    omega

theorem DB.evaluate_nan (e : DB.evaluate s = .ok () s') (hij : i < j) (hj : j < s'.nClusters) (h : s'.D.get j i = .ok .nan) :
    s'.criterion = .nan := by
  rw [DB.evaluate, bind_apply, get_apply, Res.bind_ok] at e
  split at e
  · obtain ⟨R, _, e1, e⟩ := py_bind_inv e
    obtain ⟨f1, rfl⟩ := lift_inv e1
    obtain ⟨_, _, e2, e⟩ := py_bind_inv e
    cases e2
    obtain ⟨ms, _, e3, e⟩ := py_bind_inv e
    obtain ⟨f3, rfl⟩ := lift_inv e3
    cases e
    simp only at h hj ⊢
    rw [DB.ratios] at f1
    obtain ⟨U, hU, f1⟩ := except_bind_inv f1
    obtain ⟨hsq, hget⟩ := upperTri_sq hU
    obtain ⟨hT, hTg⟩ := transpose_sq hsq
    obtain ⟨hTT, hTTg⟩ := transpose_sq hT
    obtain ⟨hR, hRg⟩ := add_sq hT hTT f1
    have hi := hij.trans hj
    -- the entry of `U` exists, so the ratio was computed
    have hrow : ∃ x, DB.ratio s i j = .ok x := by
      rw [Arr2.upperTri] at hU
      obtain ⟨rs, hrs, _⟩ := except_bind_inv hU
      obtain ⟨row, _, hrow⟩ := mapE_mem hrs (List.mem_range.2 hi)
      obtain ⟨x, _, hx⟩ := mapE_mem hrow (List.mem_range.2 hj)
      rw [if_pos hij] at hx
      exact ⟨x, hx⟩
    obtain ⟨x, hx⟩ := hrow
    have hxn : x = .nan := by
      rw [DB.ratio] at hx
      obtain ⟨a, _, hx⟩ := except_bind_inv hx
      obtain ⟨b, _, hx⟩ := except_bind_inv hx
      obtain ⟨q, hq, hx⟩ := except_bind_inv hx
      rw [h] at hq
      cases hq
      cases hx
      exact XR.div_nan _
    subst hxn
    have h1 : U.transpose.get j i = .ok .nan := by rw [hTg j i hj hi]; exact hget i j _ hij hj hx
    have h2 := hTT.get hj hi
    have h3 := hRg j i _ _ hj hi h1 h2
    rw [XR.nan_add] at h3
    obtain ⟨m, hm, e4⟩ := mapE_mem f3 (a := i) (by rw [List.mem_range, hR.2.1]; exact hi)
    obtain ⟨c, hc, e4⟩ := except_bind_inv e4
    rw [amax_nan_inv e4 (col_mem hc h3).2] at hm
    rw [XR.sum_eq_nan hm, XR.nan_div]
  · cases e
    simp only at hj
    omega

theorem RCIP.evaluate_nan (e : RCIP.evaluate s = .ok () s') (hij : i < j) (hj : j < s'.D.rows.length) (h : s'.D.get i j = .ok .nan) :
    s'.criterion = .nan := by
  rw [RCIP.evaluate, bind_apply, get_apply, Res.bind_ok] at e
  split at e
  · obtain ⟨vals, _, e1, e⟩ := py_bind_inv e
    obtain ⟨f1, rfl⟩ := lift_inv e1
    cases e
    simp only at h hj ⊢
    exact XR.sum_eq_nan (triu_nan f1 hij hj h)
  · cases e
    simp only at hj
    omega

theorem mem_eraseIdx_of_ne {l : Vec} {i j : ℕ} {x : XR} (h : l[i]? = some x) (hij : i ≠ j) : x ∈ l.eraseIdx j := by
  rw [List.mem_eraseIdx_iff_getElem?]
  exact ⟨i, hij, h⟩

theorem PS.evaluate_nan (e : PS.evaluate s = .ok () s') (hij : i ≠ j) (hi : i < s'.nClusters) (hk : 1 < s'.nClusters)
    (h : s'.D.get i j = .ok .nan) : s'.criterion = .nan := by
  rw [PS.evaluate, bind_apply, get_apply, Res.bind_ok] at e
  split at e
  · obtain ⟨_, _, e1, e⟩ := py_bind_inv e
    cases e1
    obtain ⟨_, _, e1, e⟩ := py_bind_inv e
    cases e1
    obtain ⟨_, _, e1, e⟩ := py_bind_inv e
    obtain ⟨_, rfl⟩ := lift_inv e1
    obtain ⟨_, _, e1, e⟩ := py_bind_inv e
    cases e1
    obtain ⟨_, _, e1, e⟩ := py_bind_inv e
    cases e1
    obtain ⟨nMax, _, e1, e⟩ := py_bind_inv e
    obtain ⟨_, rfl⟩ := lift_inv e1
    obtain ⟨ps, _, e1, e⟩ := py_bind_inv e
    obtain ⟨f1, rfl⟩ := lift_inv e1
    cases e
    simp only at h hi ⊢
    obtain ⟨y, hy, e2⟩ := mapE_mem f1 (List.mem_range.2 hi)
    rw [PS.psTerm] at e2
    obtain ⟨row, hrow, e2⟩ := except_bind_inv e2
    obtain ⟨dl, hdl, e2⟩ := except_bind_inv e2
    obtain ⟨_, _, e2⟩ := except_bind_inv e2
    obtain ⟨q, _, e2⟩ := except_bind_inv e2
    obtain ⟨mn, hmn, e2⟩ := except_bind_inv e2
    have hget : row[j]? = some XR.nan := by
      rw [Arr2.row] at hrow
      simp only [Arr2.get] at h
      cases hr : s.D.rows[i]? with
      | none => rw [hr] at hrow; cases hrow
      | some r =>
        rw [hr] at hrow h
        cases hrow
        simp only at h
        cases hj : row[j]? with
        | none => rw [hj] at h; cases h
        | some z => rw [hj] at h; cases h; rfl
    have hdel : XR.nan ∈ dl := by
      rw [Vec.delete] at hdl
      split at hdl
      · cases hdl; exact mem_eraseIdx_of_ne hget hij.symm
      · cases hdl
    rw [amin_nan_inv hmn hdel] at e2
    cases e2
    refine XR.sum_eq_nan ?_
    rwa [XR.neg_nan, XR.nan_div, XR.exp_nan, XR.sub_nan] at hy
  · cases e
    contradiction

theorem truthy_nan : XR.truthy .nan = true := rfl

theorem CSIL.evaluate_nan (e : CSIL.evaluate s = .ok () s') (hij : i ≠ j) (hj : j < s'.nClusters) (hk : 1 < s'.nClusters)
    (h : s'.Sm.get i j = .ok .nan) : s'.criterion = .nan := by
  rw [CSIL.evaluate, bind_apply, modify_apply, Res.bind_ok, bind_apply, get_apply, Res.bind_ok] at e
  split at e
  · obtain ⟨cs, _, e1, e⟩ := py_bind_inv e
    obtain ⟨f1, rfl⟩ := lift_inv e1
    cases e
    simp only at h hj ⊢
    obtain ⟨y, hy, e2⟩ := mapE_mem f1 (List.mem_range.2 hj)
    rw [CSIL.coef] at e2
    obtain ⟨a, _, e2⟩ := except_bind_inv e2
    obtain ⟨c, hc, e2⟩ := except_bind_inv e2
    obtain ⟨dl, hdl, e2⟩ := except_bind_inv e2
    obtain ⟨mn, hmn, e2⟩ := except_bind_inv e2
    have hdel : XR.nan ∈ dl := by
      rw [Vec.delete] at hdl
      split at hdl
      · cases hdl; exact mem_eraseIdx_of_ne (col_mem hc h).1 hij
      · cases hdl
    rw [amin_nan_inv hmn hdel, XR.nan_sub, XR.nan_div] at e2
    cases e2
    rw [XR.sum_eq_nan hy, XR.nan_div]
  · rename_i hc
    cases e
    simp only at h hk
    refine absurd ⟨hk, ?_⟩ hc
    rw [Arr2.get] at h
    cases hr : s.Sm.rows[i]? with
    | none => rw [hr] at h; cases h
    | some r =>
      rw [hr] at h
      simp only at h
      cases hj : r[j]? with
      | none => rw [hj] at h; cases h
      | some z =>
        rw [hj] at h
        cases h
        rw [Arr2.any, List.any_eq_true]
        exact ⟨r, List.mem_of_getElem? hr, List.any_eq_true.2 ⟨_, List.mem_of_getElem? hj, rfl⟩⟩

end

end Verif

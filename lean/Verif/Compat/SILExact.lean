import Verif.Compat.SIL
import Verif.Compat.XB
import Verif.Compat.SpecSIL
import Verif.Proofs.CSIL

/-! # The values of `iSIL` -/

namespace Verif.V0
open Spec Py CSIL

variable {d : ℕ}

/-! ## Streams with the first samples twice -/

theorem doubledFrom_append (seen : List ℤ) (S : Stream d) (x : Pt d) (c : ℤ) :
    doubledFrom seen (S ++ [(x, c)]) = doubledFrom seen S ++ if c ∈ seen ∨ c ∈ labels S then [(x, c)] else [(x, c), (x, c)] := by
  induction S generalizing seen with
  | nil => by_cases h : c ∈ seen <;> simp [doubledFrom, h, labels]
  | cons p S ih =>
    obtain ⟨y, a⟩ := p
    simp only [List.cons_append, doubledFrom]
    by_cases h : a ∈ seen
    · rw [if_pos h, if_pos h, ih, List.cons_append]
      congr 2
      refine if_congr ?_ rfl rfl
      simp only [labels, List.map_cons, List.toFinset_cons, Finset.mem_insert]
      constructor
      · rintro (h1 | h1)
        · exact .inl h1
        · exact .inr (.inr h1)
      · rintro (h1 | h1 | h1)
        · exact .inl h1
        · exact .inl (h1 ▸ h)
        · exact .inr h1
    · rw [if_neg h, if_neg h, ih, List.cons_append, List.cons_append]
      congr 3
      refine if_congr ?_ rfl rfl
      simp only [labels, List.map_cons, List.toFinset_cons, Finset.mem_insert, List.mem_cons]
      tauto

theorem doubled_old {S : Stream d} {x : Pt d} {c : ℤ} (h : c ∈ labels S) : doubled (S ++ [(x, c)]) = doubled S ++ [(x, c)] := by
  rw [doubled, doubledFrom_append, if_pos (.inr h), doubled]

theorem doubled_new {S : Stream d} {x : Pt d} {c : ℤ} (h : c ∉ labels S) :
    doubled (S ++ [(x, c)]) = (doubled S ++ [(x, c)]) ++ [(x, c)] := by
  rw [doubled, doubledFrom_append, if_neg (by simp [h]), doubled]
  simp

theorem labels_doubled (S : Stream d) : labels (doubled S) = labels S := by
  induction S using List.reverseRecOn with
  | nil => rfl
  | append_singleton S p ih =>
    obtain ⟨x, c⟩ := p
    by_cases h : c ∈ labels S
    · rw [doubled_old h, labels_append, labels_append, ih]
    · rw [doubled_new h, labels_append, labels_append, labels_append, ih, Finset.insert_idem]

/-! ## The matrix -/

theorem lastLabel_append (S : Stream d) (x : Pt d) (c : ℤ) : lastLabel (S ++ [(x, c)]) = some c := by simp [lastLabel]

theorem silEntry_self (S : Stream d) (x : Pt d) {i j c : ℤ} (h : i = c ∨ j = c) :
    silEntry (S ++ [(x, c)]) i j = .fin (silTerm (S ++ [(x, c)]) i j) := by
  classical
  have h' : c = i ∨ c = j := h.imp Eq.symm Eq.symm
  simp [silEntry, List.inits_append, lastLabel_append, h']

theorem silEntry_old (S : Stream d) (x : Pt d) {i j c : ℤ} (hi : i ≠ c) (hj : j ≠ c) (h : c ∈ labels S) :
    silEntry (S ++ [(x, c)]) i j = silEntry S i j := by
  classical
  have h' : ¬ (c = i ∨ c = j) := by rintro (e | e); exacts [hi e.symm, hj e.symm]
  simp only [silEntry, numClusters_old h]
  simp [List.inits_append, lastLabel_append, h']

theorem numClusters_prefix {P S : Stream d} (h : P <+: S) : numClusters P ≤ numClusters S := by
  obtain ⟨Q, rfl⟩ := h
  refine Finset.card_le_card fun a ha => ?_
  simp only [labels, List.map_append, List.toFinset_append, Finset.mem_union]
  exact .inl ha

theorem silEntry_new (S : Stream d) (x : Pt d) {i j c : ℤ} (hi : i ≠ c) (hj : j ≠ c) (h : c ∉ labels S) :
    silEntry (S ++ [(x, c)]) i j = .pinf := by
  classical
  have h' : ¬ (c = i ∨ c = j) := by rintro (e | e); exacts [hi e.symm, hj e.symm]
  have hf : (S ++ [(x, c)]).inits.filter (fun P => decide ((lastLabel P = some i ∨ lastLabel P = some j)
      ∧ numClusters P = numClusters (S ++ [(x, c)]))) = [] := by
    rw [List.filter_eq_nil_iff]
    intro P hP
    rw [decide_eq_true_eq]
    rintro ⟨h1, h2⟩
    rcases List.prefix_concat_iff.mp ((List.mem_inits _ _).mp hP) with rfl | hP
    · rw [lastLabel_append, Option.some_inj, Option.some_inj] at h1
      exact h' h1
    · have := numClusters_prefix hP
      rw [numClusters_new h] at h2
      omega
  rw [silEntry, hf]
  rfl

theorem silEntry_cases (S : Stream d) (i j : ℤ) : (∃ r, silEntry S i j = .fin r) ∨ silEntry S i j = .pinf := by
  unfold silEntry
  split
  · exact .inl ⟨_, rfl⟩
  · exact .inr rfl

/-! ## Least and greatest -/

/-- A number or `inf`. -/
def Upper (a : XR) : Prop := (∃ r, a = .fin r) ∨ a = .pinf

/-- The order of these. -/
def Le (a b : XR) : Prop := b = .pinf ∨ ∃ x y, a = .fin x ∧ b = .fin y ∧ x ≤ y

theorem Le.refl {a : XR} (h : Upper a) : Le a a := by
  rcases h with ⟨r, rfl⟩ | rfl
  · exact .inr ⟨r, r, rfl, rfl, le_rfl⟩
  · exact .inl rfl

theorem Le.trans {a b c : XR} (h : Le a b) (h' : Le b c) : Le a c := by
  rcases h' with rfl | ⟨x, y, rfl, rfl, hxy⟩
  · exact .inl rfl
  · rcases h with h | ⟨u, v, rfl, h, huv⟩
    · cases h
    · cases h
      exact .inr ⟨u, y, rfl, rfl, huv.trans hxy⟩

theorem pyMin_le {a b : XR} (ha : Upper a) (hb : Upper b) : (XR.pyMin a b = a ∨ XR.pyMin a b = b) ∧ Le (XR.pyMin a b) a ∧ Le (XR.pyMin a b) b := by
  rcases ha with ⟨a, rfl⟩ | rfl <;> rcases hb with ⟨b, rfl⟩ | rfl
  · rw [pyMin_fin_fin]
    refine ⟨?_, .inr ⟨_, _, rfl, rfl, min_le_left _ _⟩, .inr ⟨_, _, rfl, rfl, min_le_right _ _⟩⟩
    rcases min_choice a b with h | h <;> simp [h]
  · rw [pyMin_fin_pinf]
    exact ⟨.inl rfl, .inr ⟨_, _, rfl, rfl, le_rfl⟩, .inl rfl⟩
  · rw [pyMin_pinf_fin]
    exact ⟨.inr rfl, .inl rfl, .inr ⟨_, _, rfl, rfl, le_rfl⟩⟩
  · rw [pyMin_pinf_pinf]
    exact ⟨.inl rfl, .inl rfl, .inl rfl⟩

theorem le_pyMax {a b : XR} (ha : Upper a) (hb : Upper b) : (XR.pyMax a b = a ∨ XR.pyMax a b = b) ∧ Le a (XR.pyMax a b) ∧ Le b (XR.pyMax a b) := by
  rcases ha with ⟨a, rfl⟩ | rfl <;> rcases hb with ⟨b, rfl⟩ | rfl
  · rw [XR.pyMax]
    by_cases h : a < b
    · rw [if_pos (show XR.lt (.fin a) (.fin b) from h)]
      exact ⟨.inr rfl, .inr ⟨_, _, rfl, rfl, h.le⟩, .inr ⟨_, _, rfl, rfl, le_rfl⟩⟩
    · rw [if_neg (show ¬ XR.lt (.fin a) (.fin b) from h)]
      exact ⟨.inl rfl, .inr ⟨_, _, rfl, rfl, le_rfl⟩, .inr ⟨_, _, rfl, rfl, not_lt.mp h⟩⟩
  · rw [XR.pyMax, if_pos (show XR.lt (.fin a) .pinf by simp [XR.lt])]
    exact ⟨.inr rfl, .inl rfl, .inl rfl⟩
  · rw [XR.pyMax, if_neg (show ¬ XR.lt .pinf (.fin b) by simp [XR.lt])]
    exact ⟨.inl rfl, .inl rfl, .inl rfl⟩
  · rw [XR.pyMax, ite_self]
    exact ⟨.inl rfl, .inl rfl, .inl rfl⟩

theorem foldl_pyMin {l : List XR} (hl : ∀ a ∈ l, Upper a) {a : XR} (ha : Upper a) :
    (l.foldl XR.pyMin a = a ∨ l.foldl XR.pyMin a ∈ l) ∧ Upper (l.foldl XR.pyMin a) ∧ Le (l.foldl XR.pyMin a) a
      ∧ ∀ b ∈ l, Le (l.foldl XR.pyMin a) b := by
  induction l generalizing a with
  | nil => exact ⟨.inl rfl, ha, Le.refl ha, by simp⟩
  | cons b l ih =>
    have hb := hl b (by simp)
    obtain ⟨h1, h2, h3⟩ := pyMin_le ha hb
    have hu : Upper (XR.pyMin a b) := by rcases h1 with h | h <;> rw [h] <;> assumption
    obtain ⟨i1, i2, i3, i4⟩ := ih (fun c hc => hl c (by simp [hc])) hu
    rw [List.foldl_cons]
    refine ⟨?_, i2, i3.trans h2, ?_⟩
    · rcases i1 with h | h
      · rw [h]
        rcases h1 with h | h
        · exact .inl h
        · exact .inr (by simp [h])
      · exact .inr (by simp [h])
    · intro c hc
      rcases List.mem_cons.mp hc with rfl | hc
      · exact i3.trans h3
      · exact i4 c hc

theorem foldl_pyMax {l : List XR} (hl : ∀ a ∈ l, Upper a) {a : XR} (ha : Upper a) :
    (l.foldl XR.pyMax a = a ∨ l.foldl XR.pyMax a ∈ l) ∧ Upper (l.foldl XR.pyMax a) ∧ Le a (l.foldl XR.pyMax a)
      ∧ ∀ b ∈ l, Le b (l.foldl XR.pyMax a) := by
  induction l generalizing a with
  | nil => exact ⟨.inl rfl, ha, Le.refl ha, by simp⟩
  | cons b l ih =>
    have hb := hl b (by simp)
    obtain ⟨h1, h2, h3⟩ := le_pyMax ha hb
    have hu : Upper (XR.pyMax a b) := by rcases h1 with h | h <;> rw [h] <;> assumption
    obtain ⟨i1, i2, i3, i4⟩ := ih (fun c hc => hl c (by simp [hc])) hu
    rw [List.foldl_cons]
    refine ⟨?_, i2, h2.trans i3, ?_⟩
    · rcases i1 with h | h
      · rw [h]
        rcases h1 with h | h
        · exact .inl h
        · exact .inr (by simp [h])
      · exact .inr (by simp [h])
    · intro c hc
      rcases List.mem_cons.mp hc with rfl | hc
      · exact h3.trans i3
      · exact i4 c hc

theorem least_eq {A : Set XR} {m : XR} (hu : Upper m) (hm : m ∈ A) (h : ∀ r ∈ A, Le m r) : least A = m := by
  rcases hu with ⟨x, rfl⟩ | rfl
  · rw [least, if_pos ⟨x, hm⟩]
    congr 1
    refine IsLeast.csInf_eq ⟨hm, fun r hr => ?_⟩
    rcases h _ hr with e | ⟨u, v, e1, e2, huv⟩
    · cases e
    · cases e1; cases e2; exact huv
  · rw [least, if_neg]
    rintro ⟨r, hr⟩
    rcases h _ hr with e | ⟨u, v, e1, -, -⟩
    · cases e
    · cases e1

theorem greatest_eq {A : Set XR} {m : XR} (hu : Upper m) (hm : m ∈ A) (h : ∀ r ∈ A, Le r m) : greatest A = m := by
  rcases hu with ⟨x, rfl⟩ | rfl
  · rw [greatest, if_neg]
    · congr 1
      refine IsGreatest.csSup_eq ⟨hm, fun r hr => ?_⟩
      rcases h _ hr with e | ⟨u, v, e1, e2, huv⟩
      · cases e
      · cases e1; cases e2; exact huv
    · intro hp
      rcases h _ hp with e | ⟨u, v, e1, -, -⟩
      · cases e
      · cases e1
  · rw [greatest, if_pos hm]

/-! ## Tables -/

theorem mapE_eq_map {α β : Type} {f : α → Except PyErr β} {g : α → β} {l : List α} (h : ∀ a ∈ l, f a = .ok (g a)) : mapE f l = .ok (l.map g) := by
  induction l with
  | nil => rfl
  | cons a l ih => simp [mapE, h a (by simp), ih fun b hb => h b (by simp [hb])]

theorem mapE_range {β : Type} {k : ℕ} {f : ℕ → Except PyErr β} {g : ℤ → β} (h : ∀ i < k, f i = .ok (g i)) :
    mapE f (List.range k) = .ok (tab k g) := by
  rw [mapE_eq_map (g := fun i : ℕ => g i) fun i hi => h i (List.mem_range.mp hi)]
  simp [tab, rangeKeys]

/-- A square table. -/
def sq (k : ℕ) (f : ℤ → ℤ → XR) : Arr2 := ⟨k, tab k fun i => tab k (f i)⟩

theorem getAt2_sq {k : ℕ} (f : ℤ → ℤ → XR) {i j : ℤ} (hi0 : 0 ≤ i) (hi : i < k) (hj0 : 0 ≤ j) (hj : j < k) :
    getAt2 (sq k f) i j = .ok (f i j) := by
  simp only [getAt2, sq, getAt_tab _ hi0 hi, except_bind_ok, getAt_tab _ hj0 hj]

theorem pad_sq (k : ℕ) (f : ℤ → ℤ → XR) (v : XR) :
    pad (sq k f) v = sq (k + 1) fun i j => if i < k ∧ j < k then f i j else v := by
  simp only [pad, sq, Arr2.mk.injEq, true_and]
  rw [show (tab k fun i => tab k (f i)).map (· ++ [v]) = tab k fun i => tab (k + 1) fun j => if i < k ∧ j < k then f i j else v by
    simp only [tab, List.map_map]
    refine List.map_congr_left fun i hi => ?_
    have hi' := (mem_rangeKeys.mp hi).2
    exact tab_append (by simp) fun b _ hb => by rw [if_pos ⟨hi', hb⟩]]
  refine tab_append ?_ fun _ _ _ => rfl
  refine List.eq_replicate_iff.mpr ⟨by simp, fun b hb => ?_⟩
  obtain ⟨j, hj, rfl⟩ := List.mem_map.mp hb
  rw [if_neg (by omega)]

/-! ## One update -/

/-- The state of `iSIL` when its tables are those of the stream `D` with clusters `0 .. k-1`, `M` its matrix and `G` the arrays kept as sums. -/
structure SIL.Tab (D : Stream d) (k : ℕ) (G : ℤ → ℕ) (M : ℤ → ℤ → XR) (s : SIL) : Prop where
  centers : s.centers = tab k fun a => enc (centroid D a)
  sizes : s.sizes = tab k (size D)
  CP : s.CP = tab k fun a => .fin (sqSum D a)
  g : s.g = tab k G
  heap : ∀ a : ℤ, 0 ≤ a → a < k → s.heap (G a) = enc (vecSum D a)
  b : s.b = sq k fun _ _ => .pinf
  sij : 0 < k → s.sij = sq (k + 1) fun i j => if i < k ∧ j < k then M i j else 0

/-- The entry computed when a sample of cluster `c` arrives. -/
noncomputable def newTerm (D : Stream d) (c i j : ℤ) : ℝ :=
  crossScatter D j i + if j = c ∧ i ≠ j then dot (centroid D i) (centroid D i) / size D j else 0

/-- The matrix after a sample of cluster `c`. -/
noncomputable def newMat (D : Stream d) (c : ℤ) (M : ℤ → ℤ → XR) (i j : ℤ) : XR := if i = c ∨ j = c then .fin (newTerm D c i j) else M i j

theorem sum_sq_dot (x : Pt d) : ∑ i, x i ^ 2 = dot x x := by
  rw [dot]
  exact Finset.sum_congr rfl fun i _ => by ring

theorem dot_comm (x y : Pt d) : dot x y = dot y x := Finset.sum_congr rfl fun _ _ => mul_comm _ _

theorem SIL.sijNew_eq {D : Stream d} {x : Pt d} {c : ℤ} {i j : ℕ} (hs : size (D ++ [(x, c)]) j ≠ 0) (old : XR) :
    SIL.sijNew (enc x) i j c (size (D ++ [(x, c)]) j) (.fin (sqSum D j)) (enc (centroid (D ++ [(x, c)]) j))
      (enc (centroid (D ++ [(x, c)]) i)) (enc (vecSum D j)) old
      = .ok (if (i : ℤ) = c ∨ (j : ℤ) = c then .fin (newTerm (D ++ [(x, c)]) c i j) else old) := by
  set D' := D ++ [(x, c)] with hD'
  have hs' : (size D' j : ℝ) ≠ 0 := by exact_mod_cast hs
  have hd : ∀ v : Pt d, ∑ k, (x k - v k) ^ 2 = dot x x + dot v v - 2 * dot x v := fun v => dist2_expand x v
  simp only [SIL.sijNew, sub_enc, except_bind_ok]
  by_cases hi : (i : ℤ) = c
  · by_cases hj : (j : ℤ) = c
    · have hij : (i : ℤ) = j := hi.trans hj.symm
      rw [if_neg (by simpa using hi), if_pos hj, if_pos (.inl hi)]
      simp only [inner_enc, except_bind_ok, except_pure, norm22_enc, hd, sum_sq_dot, XR.fin_add, XR.fin_sub, XR.fin_mul]
      congr 2
      rw [newTerm, if_neg (by simp [hij]), add_zero, crossScatter_expand, ← hij]
      rw [← hij] at hs'
      have e1 : sqSum D' (i : ℤ) = sqSum D i + dot x x := by rw [hD', hi]; exact sqSum_append_self D x c
      have e2 : vecSum D' (i : ℤ) = fun k => vecSum D i k + x k := by rw [hD', hi]; exact vecSum_append_self D x c
      rw [e1, e2, dot_add_left]
      have e3 : ∑ k, centroid D' (i : ℤ) k * vecSum D i k = dot (vecSum D i) (centroid D' i) := dot_comm _ _
      rw [e3]
      field_simp
      ring
    · rw [if_neg (by simpa using hi), if_neg hj, if_pos (.inl hi)]
      simp only [inner_enc, except_bind_ok, except_pure, norm22_enc, sum_sq_dot, XR.fin_add, XR.fin_sub, XR.fin_mul]
      congr 2
      rw [newTerm, if_neg (by simp [hj]), add_zero, crossScatter_expand]
      have e1 : sqSum D' (j : ℤ) = sqSum D j := sqSum_append_ne D x hj
      have e2 : vecSum D' (j : ℤ) = vecSum D j := vecSum_append_ne D x hj
      have e3 : ∑ k, centroid D' (i : ℤ) k * vecSum D j k = dot (vecSum D j) (centroid D' i) := dot_comm _ _
      rw [e1, e2, e3]
      field_simp
  · by_cases hj : (j : ℤ) = c
    · have hij : (i : ℤ) ≠ j := fun e => hi (e.trans hj)
      rw [if_pos hi, if_pos hj, if_pos (.inr hj)]
      simp only [inner_enc, except_bind_ok, except_pure, norm22_enc, hd, sum_sq_dot, XR.fin_add, XR.fin_sub, XR.fin_mul]
      congr 2
      rw [newTerm, if_pos ⟨hj, hij⟩, crossScatter_expand]
      have e1 : sqSum D' (j : ℤ) = sqSum D j + dot x x := by rw [hD', hj]; exact sqSum_append_self D x c
      have e2 : vecSum D' (j : ℤ) = fun k => vecSum D j k + x k := by rw [hD', hj]; exact vecSum_append_self D x c
      have e3 : ∑ k, centroid D' (i : ℤ) k * vecSum D j k = dot (vecSum D j) (centroid D' i) := dot_comm _ _
      rw [e1, e2, dot_add_left, e3]
      field_simp
      ring
    · rw [if_pos hi, if_neg hj, if_neg (by simp [hi, hj])]
      rfl

/-- The coefficient of cluster `i` computed from the matrix `M`. -/
noncomputable def coefOf (k : ℕ) (c : ℤ) (M : ℤ → ℤ → XR) (i : ℤ) : XR :=
  (least {r | ∃ j : ℤ, 0 ≤ j ∧ j < k ∧ j ≠ c ∧ r = M i j} - M i c)
    / greatest ({M i c} ∪ {r | ∃ j : ℤ, 0 ≤ j ∧ j < k ∧ j ≠ c ∧ r = M i j})

theorem SIL.sci_eq {k : ℕ} {s : SIL} {M : ℤ → ℤ → XR} (hM : ∀ i j, Upper (M i j)) (hc : s.centers.length = k)
    (hs : s.sij = sq (k + 1) fun i j => if i < k ∧ j < k then M i j else 0) (hk : 2 ≤ k) {c : ℤ} (h0 : 0 ≤ c) (h1 : c < k) {i : ℕ} (hi : i < k) :
    s.sci c i = .ok (coefOf k c M i) := by
  have hget : ∀ j : ℤ, 0 ≤ j → j < k → getAt2 s.sij i j = .ok (M i j) := fun j hj0 hj => by
    rw [hs, getAt2_sq _ (by omega) (by push_cast; omega) hj0 (by push_cast; omega), if_pos ⟨by exact_mod_cast hi, hj⟩]
  set o := ((List.range k).filter fun j : ℕ => decide ((j : ℤ) ≠ c)).map fun j : ℕ => M i j with ho
  have hoth : s.others i c = .ok o := by
    rw [SIL.others, hc]
    refine mapE_eq_map fun j hj => ?_
    have hj' : j < k := by simpa using (List.mem_filter.mp hj).1
    exact hget j (by omega) (by exact_mod_cast hj')
  have hset : {r | r ∈ o} = {r | ∃ j : ℤ, 0 ≤ j ∧ j < k ∧ j ≠ c ∧ r = M i j} := by
    ext r
    simp only [ho, Set.mem_ofPred_eq, List.mem_map, List.mem_filter, List.mem_range, decide_eq_true_eq]
    constructor
    · rintro ⟨j, ⟨hj, hjc⟩, rfl⟩
      exact ⟨j, by omega, by exact_mod_cast hj, hjc, rfl⟩
    · rintro ⟨j, hj0, hj, hjc, rfl⟩
      have e : ((j.toNat : ℕ) : ℤ) = j := by omega
      exact ⟨j.toNat, ⟨by omega, by rw [e]; exact hjc⟩, by rw [e]⟩
  have hne : o ≠ [] := by
    intro e
    rw [ho, List.map_eq_nil_iff, List.filter_eq_nil_iff] at e
    have a0 := e 0 (List.mem_range.mpr (by omega))
    have a1 := e 1 (List.mem_range.mpr (by omega))
    simp only [decide_eq_true_eq, ne_eq, not_not] at a0 a1
    omega
  have hup : ∀ r ∈ o, Upper r := by
    intro r hr
    obtain ⟨j, -, rfl⟩ := List.mem_map.mp hr
    exact hM _ _
  obtain ⟨a, l, hal⟩ := List.exists_cons_of_ne_nil hne
  have hua : Upper a := hup a (by simp [hal])
  have hul : ∀ r ∈ l, Upper r := fun r hr => hup r (by simp [hal, hr])
  obtain ⟨m1, m2, m3, m4⟩ := foldl_pyMin hul hua
  obtain ⟨n1, n2, n3, n4⟩ := foldl_pyMax hul hua
  have hmin : least {r | ∃ j : ℤ, 0 ≤ j ∧ j < k ∧ j ≠ c ∧ r = M i j} = l.foldl XR.pyMin a := by
    rw [← hset]
    refine least_eq m2 ?_ ?_
    · show _ ∈ o
      rw [hal]
      rcases m1 with h | h
      · simp [h]
      · simp [h]
    · intro r hr
      change r ∈ o at hr
      rw [hal, List.mem_cons] at hr
      rcases hr with rfl | hr
      · exact m3
      · exact m4 r hr
  obtain ⟨q1, q2, q3⟩ := le_pyMax (hM i c) n2
  have hmax : greatest ({M i c} ∪ {r | ∃ j : ℤ, 0 ≤ j ∧ j < k ∧ j ≠ c ∧ r = M i j}) = XR.pyMax (M i c) (l.foldl XR.pyMax a) := by
    rw [← hset]
    refine greatest_eq ?_ ?_ ?_
    · rcases q1 with h | h <;> rw [h]
      · exact hM _ _
      · exact n2
    · rcases q1 with h | h <;> rw [h]
      · exact .inl rfl
      · refine .inr ?_
        show _ ∈ o
        rw [hal]
        rcases n1 with h | h
        · simp [h]
        · simp [h]
    · rintro r (hr | hr)
      · rw [Set.mem_singleton_iff] at hr
        rw [hr]
        exact q2
      · change r ∈ o at hr
        rw [hal, List.mem_cons] at hr
        rcases hr with rfl | hr
        · exact n3.trans q3
        · exact (n4 r hr).trans q3
  simp only [SIL.sci, hoth, except_bind_ok, hal, listMin, listMax, hget c h0 h1, except_pure, coefOf, hmin, hmax]

theorem zipWith_tab {α β γ : Type} (k : ℕ) (h : α → β → γ) (f : ℤ → α) (g : ℤ → β) :
    List.zipWith h (tab k f) (tab k g) = tab k fun i => h (f i) (g i) := by
  simp [tab, List.zipWith_map, List.zipWith_self]

/-- The double loop. -/
theorem SIL.loop_eq {D : Stream d} {x : Pt d} {c : ℤ} {k : ℕ} {G : ℤ → ℕ} {M : ℤ → ℤ → XR} {t : SIL}
    (hc : t.centers = tab k fun a => enc (centroid (D ++ [(x, c)]) a)) (hs : t.sizes = tab k (size (D ++ [(x, c)])))
    (hcp : t.CP = tab k fun a => .fin (sqSum D a)) (hg : t.g = tab k G)
    (hh : ∀ a : ℤ, 0 ≤ a → a < k → t.heap (G a) = enc (vecSum D a))
    (hm : t.sij = sq (k + 1) fun i j => if i < k ∧ j < k then M i j else 0)
    (hpos : ∀ a : ℤ, 0 ≤ a → a < k → size (D ++ [(x, c)]) a ≠ 0) :
    t.loop (enc x) c = .ok (sq (k + 1) fun i j => if i < k ∧ j < k then newMat (D ++ [(x, c)]) c M i j else 0) := by
  have he : ∀ i < k, ∀ j < k, t.loopEntry (enc x) c i j = .ok (newMat (D ++ [(x, c)]) c M i j) := by
    intro i hi j hj
    have i0 : (0 : ℤ) ≤ i := by omega
    have i1 : (i : ℤ) < k := by exact_mod_cast hi
    have j0 : (0 : ℤ) ≤ j := by omega
    have j1 : (j : ℤ) < k := by exact_mod_cast hj
    simp only [SIL.loopEntry, hc, hs, hcp, hg, hm, getAt_tab _ i0 i1, getAt_tab _ j0 j1,
      getAt2_sq _ i0 (show (i : ℤ) < ((k + 1 : ℕ) : ℤ) by push_cast; omega) j0 (show (j : ℤ) < ((k + 1 : ℕ) : ℤ) by push_cast; omega),
      except_bind_ok, hh j j0 j1]
    rw [SIL.sijNew_eq (hpos j j0 j1)]
    simp only [newMat, i1, j1, and_self, if_true]
  have hes : mapE (fun i => mapE (fun j => t.loopEntry (enc x) c i j) (List.range k)) (List.range k)
      = .ok (tab k fun i => tab k (newMat (D ++ [(x, c)]) c M i)) :=
    mapE_range fun i hi => mapE_range fun j hj => he i hi j hj
  simp only [SIL.loop, hs, tab_length, hes, except_bind_ok, except_pure, hm, sq]
  congr 2
  have e1 : ∀ f : ℤ → List XR, (tab (k + 1) f).take k = tab k f := fun f => by rw [tab_succ, List.take_left' (by simp)]
  have e2 : ∀ {β : Type} (f : ℤ → β), (tab (k + 1) f).drop k = [f k] := fun f => by rw [tab_succ, List.drop_left' (by simp)]
  rw [e1, e2, zipWith_tab]
  refine tab_append ?_ fun i hi0 hi => ?_
  · exact tab_congr fun j _ _ => by rw [if_neg (by omega), if_neg (by omega)]
  · rw [e2]
    refine (tab_append ?_ fun j hj0 hj => ?_).symm
    · rw [if_neg (by omega), if_neg (by omega)]
    · rw [if_pos ⟨hi, hj⟩]

/-- What is returned with at least two clusters. -/
noncomputable def outOf (k : ℕ) (c : ℤ) (M : ℤ → ℤ → XR) : XR := .fin (1 / (k : ℝ)) * (tab k (coefOf k c M)).sum

theorem newMat_upper {D : Stream d} {c : ℤ} {M : ℤ → ℤ → XR} (h : ∀ i j, Upper (M i j)) (i j : ℤ) : Upper (newMat D c M i j) := by
  unfold newMat
  split_ifs
  · exact .inl ⟨_, rfl⟩
  · exact h i j

/-- The rest of an update of cluster `c`. -/
theorem SIL.rest_eq {D : Stream d} {x : Pt d} {c : ℤ} {k : ℕ} {G : ℤ → ℕ} {M : ℤ → ℤ → XR} {s : SIL} (h : SIL.Tab D k G M s)
    (h0 : 0 ≤ c) (h1 : c < k) (hl : ∀ a : ℤ, 0 ≤ a → a < k → a ∈ labels D) (hM : ∀ i j, Upper (M i j))
    (hG : ∀ a b : ℤ, 0 ≤ a → a < k → 0 ≤ b → b < k → G a = G b → a = b) :
    ∃ s', SIL.rest (enc x) c s = (if 2 ≤ k then .ok (outOf k c (newMat (D ++ [(x, c)]) c M)) s' else .err .valueError s')
      ∧ SIL.Tab (D ++ [(x, c)]) k G (newMat (D ++ [(x, c)]) c M) s'
      ∧ ∀ b, (∀ a : ℤ, 0 ≤ a → a < k → G a ≠ b) → s'.heap b = s.heap b := by
  obtain ⟨heap, sc, b, out, N, cen, siz, CP, g, sij⟩ := s
  obtain ⟨hcen, hsiz, hCP, hg, hheap, hb, hsij⟩ := h
  simp only at hcen hsiz hCP hg hheap hb hsij
  have hk : 0 < k := by omega
  obtain rfl := hsij hk
  subst hcen hsiz hCP hg hb
  set D' := D ++ [(x, c)] with hD'
  have hs1 : size D' c = size D c + 1 := size_append_self D x c
  have hw : (enc fun i => centroid D c i + (x i - centroid D c i) / ((size D c + 1 : ℕ) : ℝ)) = enc (centroid D' c) :=
    enc_congr fun i => by rw [mean_step]; exact (centroid_append_self D x c i).symm
  have s1 : setAt (tab k fun a => enc (centroid D a)) c (enc (centroid D' c)) = .ok (tab k fun a => enc (centroid D' a)) :=
    setAt_tab h0 h1 rfl fun b _ _ hb => by rw [hD', centroid_append_ne D x hb]
  have s2 : setAt (tab k (size D)) c (size D c + 1) = .ok (tab k (size D')) :=
    setAt_tab h0 h1 hs1 fun b _ _ hb => size_append_ne D x hb
  have s3 : setAt (tab k fun a => XR.fin (sqSum D a)) c (XR.fin (sqSum D c) + norm22 (enc x)) = .ok (tab k fun a => XR.fin (sqSum D' a)) :=
    setAt_tab h0 h1 (by rw [norm22_enc, sum_sq_dot, XR.fin_add, hD', sqSum_append_self]) fun b _ _ hb => by rw [hD', sqSum_append_ne D x hb]
  have hgn : addInPlace (heap (G c)) (enc x) = .ok (enc (vecSum D' c)) := by
    rw [hheap c h0 h1, addInPlace_enc, hD', vecSum_append_self]
  have hpos : ∀ a : ℤ, 0 ≤ a → a < k → size D' a ≠ 0 := by
    intro a a0 a1
    have : size D a ≠ 0 := (size_pos (hl a a0 a1)).ne'
    by_cases hac : a = c
    · subst hac
      rw [hs1]
      omega
    · rw [hD', size_append_ne D x hac]
      exact this
  set t : SIL := ⟨heap, sc, sq k fun _ _ => .pinf, out, N + 1, tab k fun a => enc (centroid D' a), tab k (size D'),
    tab k fun a => .fin (sqSum D a), tab k G, sq (k + 1) fun i j => if i < k ∧ j < k then M i j else 0⟩ with ht
  have hloop : t.loop (enc x) c = .ok (sq (k + 1) fun i j => if i < k ∧ j < k then newMat D' c M i j else 0) :=
    SIL.loop_eq rfl rfl rfl rfl hheap rfl hpos
  have hheap' : ∀ a : ℤ, 0 ≤ a → a < k → Function.update heap (G c) (enc (vecSum D' c)) (G a) = enc (vecSum D' a) := by
    intro a a0 a1
    by_cases hac : a = c
    · subst hac
      exact Function.update_self ..
    · rw [Function.update_of_ne fun e => hac (hG a c a0 a1 h0 h1 e), hheap a a0 a1, hD', vecSum_append_ne D x hac]
  have hframe : ∀ b, (∀ a : ℤ, 0 ≤ a → a < k → G a ≠ b) → Function.update heap (G c) (enc (vecSum D' c)) b = heap b :=
    fun b hb => Function.update_of_ne (hb c h0 h1).symm ..
  set u : SIL := ⟨Function.update heap (G c) (enc (vecSum D' c)), sc, sq k fun _ _ => .pinf, out, N + 1, tab k fun a => enc (centroid D' a),
    tab k (size D'), tab k fun a => .fin (sqSum D' a), tab k G,
    sq (k + 1) fun i j => if i < k ∧ j < k then newMat D' c M i j else 0⟩ with hu
  by_cases hk2 : 2 ≤ k
  · have hes : mapE (u.sci c) (List.range k) = .ok (tab k (coefOf k c (newMat D' c M))) :=
      mapE_range fun i hi => SIL.sci_eq (newMat_upper hM) (by simp [hu]) rfl hk2 h0 h1 hi
    refine ⟨{ u with output := outOf k c (newMat D' c M) }, ?_, ⟨rfl, rfl, rfl, rfl, hheap', rfl, fun _ => rfl⟩, hframe⟩
    rw [if_pos hk2]
    simp only [SIL.rest, bind_apply, get_apply, modify_apply, Res.bind_ok, getAt_tab _ h0 h1, lift_ok, centerUpdate_enc, hw, s1, s2]
    rw [← ht, hloop]
    simp only [lift_ok, Res.bind_ok, ht, s3, hgn, tab_length]
    rw [← hu, hes]
    simp only [lift_ok, Res.bind_ok, pure_apply]
    simp only [hu, outOf, tab_length]
  · have hk1 : k = 1 := by omega
    have hes : mapE (u.sci c) (List.range k) = .error .valueError := by
      have hc0 : c = 0 := by omega
      have hul : u.centers.length = 1 := by simp [hu, hk1]
      rw [hk1, hc0]
      simp [List.range_succ, mapE, SIL.sci, SIL.others, hul, listMin]
    refine ⟨u, ?_, ⟨rfl, rfl, rfl, rfl, hheap', rfl, fun _ => rfl⟩, hframe⟩
    rw [if_neg hk2]
    simp only [SIL.rest, bind_apply, get_apply, modify_apply, Res.bind_ok, getAt_tab _ h0 h1, lift_ok, centerUpdate_enc, hw, s1, s2]
    rw [← ht, hloop]
    simp only [lift_ok, Res.bind_ok, ht, s3, hgn, tab_length]
    rw [← hu, hes]
    rfl

/-! ## The matrix, the value and the arrays in terms of the samples -/

theorem newTerm_eq (S : Stream d) (x : Pt d) (c i j : ℤ) : newTerm (doubled (S ++ [(x, c)])) c i j = silTerm (S ++ [(x, c)]) i j := by
  rw [newTerm, silTerm, lastLabel_append]
  congr 1
  refine if_congr ?_ rfl rfl
  rw [Option.some_inj, eq_comm]

theorem newMat_old {S : Stream d} {x : Pt d} {c : ℤ} (h : c ∈ labels S) :
    newMat (doubled (S ++ [(x, c)])) c (silEntry S) = silEntry (S ++ [(x, c)]) := by
  funext i j
  rw [newMat]
  split_ifs with hij
  · rw [newTerm_eq, silEntry_self S x hij]
  · push Not at hij
    rw [silEntry_old S x hij.1 hij.2 h]

theorem newMat_new {S : Stream d} {x : Pt d} {c : ℤ} (h : c ∉ labels S) :
    newMat (doubled (S ++ [(x, c)])) c (fun _ _ => .pinf) = silEntry (S ++ [(x, c)]) := by
  funext i j
  rw [newMat]
  split_ifs with hij
  · rw [newTerm_eq, silEntry_self S x hij]
  · push Not at hij
    rw [silEntry_new S x hij.1 hij.2 h]

theorem sum_tab {S : Stream d} (hS : Consecutive S) (f : ℤ → XR) : (tab (numClusters S) f).sum = ∑ i ∈ labels S, f i := by
  have : labels S = (rangeKeys (numClusters S)).toFinset := by
    ext a
    rw [hS a, List.mem_toFinset, mem_rangeKeys]
  rw [this, List.sum_toFinset _ (rangeKeys_nodup _)]
  rfl

theorem coefOf_eq {S : Stream d} (hS : Consecutive S) (c i : ℤ) : coefOf (numClusters S) c (silEntry S) i = silCoef S c i := by
  have : {r | ∃ j : ℤ, 0 ≤ j ∧ j < numClusters S ∧ j ≠ c ∧ r = silEntry S i j} = silOthers S c i := by
    ext r
    simp only [silOthers, Set.mem_ofPred_eq]
    constructor
    · rintro ⟨j, h0, h1, h2, h3⟩
      exact ⟨j, (hS j).mpr ⟨h0, h1⟩, h2, h3⟩
    · rintro ⟨j, h0, h2, h3⟩
      exact ⟨j, ((hS j).mp h0).1, ((hS j).mp h0).2, h2, h3⟩
  rw [coefOf, silCoef, this]

theorem outOf_eq {S : Stream d} (hS : Consecutive S) (c : ℤ) : outOf (numClusters S) c (silEntry S) = silOutput S c := by
  rw [outOf, silOutput, sum_tab hS]
  congr 1
  exact Finset.sum_congr rfl fun i _ => coefOf_eq hS c i

theorem mem_labels_samples {pts : ℕ → Pt d} {T : List (ℕ × ℤ)} {c : ℤ} : c ∈ labels (samples pts T) ↔ c ∈ T.map Prod.snd := by
  simp [labels, samples]

theorem samples_append (pts : ℕ → Pt d) (T : List (ℕ × ℤ)) (b : ℕ) (c : ℤ) :
    samples pts (T ++ [(b, c)]) = samples pts T ++ [(pts b, c)] := by simp [samples]

theorem firstArray_old {T : List (ℕ × ℤ)} {a c : ℤ} {b : ℕ} (h : a ∈ T.map Prod.snd) : firstArray (T ++ [(b, c)]) a = firstArray T a := by
  obtain ⟨p, hp, rfl⟩ := List.mem_map.mp h
  rw [firstArray, firstArray, List.find?_append]
  cases hf : T.find? fun q => decide (q.2 = p.2) with
  | none => simpa using List.find?_eq_none.mp hf p hp
  | some q => rfl

theorem firstArray_new {T : List (ℕ × ℤ)} {c : ℤ} {b : ℕ} (h : c ∉ T.map Prod.snd) : firstArray (T ++ [(b, c)]) c = b := by
  have : T.find? (fun q => decide (q.2 = c)) = none := by
    rw [List.find?_eq_none]
    intro q hq
    simp only [decide_eq_true_eq]
    rintro rfl
    exact h (List.mem_map.mpr ⟨q, hq, rfl⟩)
  rw [firstArray, List.find?_append, this]
  simp

theorem firstArray_split {T : List (ℕ × ℤ)} {a : ℤ} (h : a ∈ T.map Prod.snd) :
    ∃ P Q, T = P ++ (firstArray T a, a) :: Q ∧ a ∉ P.map Prod.snd := by
  cases hf : T.find? fun q => decide (q.2 = a) with
  | none =>
    obtain ⟨p, hp, rfl⟩ := List.mem_map.mp h
    simpa using List.find?_eq_none.mp hf p hp
  | some q =>
    obtain ⟨hq, P, Q, hT, hP⟩ := List.find?_eq_some_iff_append.mp hf
    simp only [decide_eq_true_eq] at hq
    refine ⟨P, Q, ?_, ?_⟩
    · rw [firstArray, hf, hT]
      subst hq
      rfl
    · intro hm
      obtain ⟨p, hp, e⟩ := List.mem_map.mp hm
      simpa [e] using hP p hp

theorem FirstsOnce.prefix {T : List (ℕ × ℤ)} {p : ℕ × ℤ} (h : FirstsOnce (T ++ [p])) : FirstsOnce T := by
  intro P q Q hT hq hm
  exact h P q (Q ++ [p]) (by rw [hT]; simp) hq (by simp [hm])

theorem FirstsOnce.last {T : List (ℕ × ℤ)} {b : ℕ} {c : ℤ} (h : FirstsOnce (T ++ [(b, c)])) {a : ℤ} (ha : a ∈ T.map Prod.snd) :
    firstArray T a ≠ b := by
  obtain ⟨P, Q, hT, hP⟩ := firstArray_split ha
  intro e
  refine h P (firstArray T a, a) (Q ++ [(b, c)]) (by rw [← List.cons_append, ← List.append_assoc, ← hT]) hP ?_
  simp [e]

/-- The state of `iSIL` after the samples `T`. -/
structure SIL.At (pts : ℕ → Pt d) (T : List (ℕ × ℤ)) (s : SIL) : Prop where
  tab : SIL.Tab (doubled (samples pts T)) (numClusters (samples pts T)) (firstArray T) (silEntry (samples pts T)) s
  other : ∀ b, (∀ a ∈ T.map Prod.snd, firstArray T a ≠ b) → s.heap b = enc (pts b)
  inj : ∀ a b : ℤ, a ∈ T.map Prod.snd → b ∈ T.map Prod.snd → firstArray T a = firstArray T b → a = b

theorem SIL.init_at (pts : ℕ → Pt d) : SIL.At pts [] (SIL.init fun b => enc (pts b)) := by
  refine ⟨⟨rfl, rfl, rfl, rfl, ?_, rfl, ?_⟩, fun _ _ => rfl, by simp⟩
  · intro a h0 h1
    exact absurd h1 (by simpa [samples, numClusters, labels] using h0)
  · intro h
    exact absurd h (by simp [samples, numClusters, labels])

/-- One update. -/
theorem SIL.step_eq {pts : ℕ → Pt d} {T : List (ℕ × ℤ)} {b : ℕ} {c : ℤ} {s : SIL} (hT : InOrder (samples pts (T ++ [(b, c)])))
    (hF : FirstsOnce (T ++ [(b, c)])) (h : SIL.At pts T s) :
    ∃ s', SIL.update b c s = (if 2 ≤ numClusters (samples pts (T ++ [(b, c)]))
        then .ok (silOutput (samples pts (T ++ [(b, c)])) c) s' else .err .valueError s')
      ∧ SIL.At pts (T ++ [(b, c)]) s' := by
  set S' := samples pts (T ++ [(b, c)]) with hS'
  have hSS : S' = samples pts T ++ [(pts b, c)] := samples_append pts T b c
  have hcon' := hT.consecutive
  rw [hSS] at hT
  have hcon := hT.prefix.consecutive
  set S := samples pts T with hS
  obtain ⟨⟨hcen, hsiz, hCP, hg, hheap, hb, hsij⟩, hoth, hinj⟩ := h
  rw [← hS] at hcen hsiz hCP hg hheap hb hsij
  have hmem : ∀ a : ℤ, a ∈ T.map Prod.snd ↔ 0 ≤ a ∧ a < numClusters S := fun a => by rw [← hcon a, hS, mem_labels_samples]
  have hmem' : ∀ a : ℤ, a ∈ (T ++ [(b, c)]).map Prod.snd ↔ 0 ≤ a ∧ a < numClusters S' := fun a => by
    rw [← hcon' a, hS', mem_labels_samples]
  have hx : s.heap b = enc (pts b) := hoth b fun a ha => hF.last ha
  have hl : ∀ a : ℤ, 0 ≤ a → a < numClusters S' → a ∈ labels (doubled S') := fun a h0 h1 => by
    rw [labels_doubled]
    exact (hcon' a).mpr ⟨h0, h1⟩
  rcases hT.cases with ⟨hc, h0, h1⟩ | ⟨hc, rfl⟩
  · have hcT : c ∈ T.map Prod.snd := (hmem c).mpr ⟨h0, h1⟩
    have hk : numClusters S' = numClusters S := by rw [hSS, numClusters_old hc]
    have hD : doubled S' = doubled S ++ [(pts b, c)] := by rw [hSS, doubled_old hc]
    have hG : ∀ a, a ∈ T.map Prod.snd → firstArray (T ++ [(b, c)]) a = firstArray T a := fun a ha => firstArray_old ha
    have hM : newMat (doubled S') c (silEntry S) = silEntry S' := by rw [hSS, newMat_old hc]
    obtain ⟨s', e1, e2, e3⟩ := SIL.rest_eq (x := pts b) (c := c) (s := s) ⟨hcen, hsiz, hCP, hg, hheap, hb, hsij⟩ h0 h1
      (fun a a0 a1 => by rw [labels_doubled]; exact (hcon a).mpr ⟨a0, a1⟩) (silEntry_cases S)
      (fun a a' a0 a1 b0 b1 e => hinj a a' ((hmem a).mpr ⟨a0, a1⟩) ((hmem a').mpr ⟨b0, b1⟩) e)
    rw [← hD, hM] at e1 e2
    rw [← hk] at e1 e2 e3
    rw [outOf_eq hcon'] at e1
    refine ⟨s', ?_, ⟨?_, ?_, ?_⟩⟩
    · rw [← e1, SIL.update_eq]
      have n1 : ¬ c = (s.sizes.length : ℤ) := by rw [hsiz, tab_length]; omega
      have n2 : ¬ c > (s.sizes.length : ℤ) := by rw [hsiz, tab_length]; omega
      simp only [bind_apply, get_apply, Res.bind_ok, ite_app, n1, n2, if_false, pure_apply, hx]
    · rw [← hS']
      obtain ⟨f1, f2, f3, f4, f5, f6, f7⟩ := e2
      have hG' : ∀ a : ℤ, 0 ≤ a → a < numClusters S' → firstArray (T ++ [(b, c)]) a = firstArray T a := fun a a0 a1 =>
        hG a ((hmem a).mpr ⟨a0, hk ▸ a1⟩)
      exact ⟨f1, f2, f3, by rw [f4]; exact tab_congr fun a a0 a1 => (hG' a a0 a1).symm, fun a a0 a1 => by rw [hG' a a0 a1]; exact f5 a a0 a1,
        f6, f7⟩
    · intro b' hb'
      have hb'' : ∀ a ∈ T.map Prod.snd, firstArray T a ≠ b' := fun a ha => by
        rw [← hG a ha]
        exact hb' a (by simp only [List.map_append, List.mem_append]; exact .inl ha)
      rw [e3 b' fun a a0 a1 => hb'' a ((hmem a).mpr ⟨a0, hk ▸ a1⟩)]
      exact hoth b' hb''
    · intro a a' ha ha' e
      rw [hmem', hk, ← hmem] at ha ha'
      rw [hG a ha, hG a' ha'] at e
      exact hinj a a' ha ha' e
  · set k := numClusters S with hkd
    have hcT : (k : ℤ) ∉ T.map Prod.snd := fun hm => by
      have := (hmem _).mp hm
      omega
    have hk : numClusters S' = k + 1 := by rw [hSS, numClusters_new hc]
    set D1 := doubled S ++ [(pts b, (k : ℤ))] with hD1
    have hD : doubled S' = D1 ++ [(pts b, (k : ℤ))] := by rw [hSS, doubled_new hc]
    have hcD : (k : ℤ) ∉ labels (doubled S) := by rwa [labels_doubled]
    have hG : ∀ a, a ∈ T.map Prod.snd → firstArray (T ++ [(b, (k : ℤ))]) a = firstArray T a := fun a ha => firstArray_old ha
    have hGk : firstArray (T ++ [(b, (k : ℤ))]) k = b := firstArray_new hcT
    have hM : newMat (doubled S') k (fun _ _ => .pinf) = silEntry S' := by rw [hSS, newMat_new hc]
    have hold : ∀ a : ℤ, a < k → a ≠ k := fun a ha => by omega
    have hcase : ∀ a : ℤ, 0 ≤ a → a < ((k + 1 : ℕ) : ℤ) → a = k ∨ (a ∈ T.map Prod.snd ∧ a < k) := fun a a0 a1 => by
      push_cast at a1
      by_cases e : a = k
      · exact .inl e
      · exact .inr ⟨(hmem a).mpr ⟨a0, by omega⟩, by omega⟩
    set s1 : SIL := { s with
      centers := s.centers ++ [s.heap b], sizes := s.sizes ++ [1], sc := s.sc ++ [0]
      b := pad s.b .pinf, sij := pad (pad s.b .pinf) 0
      CP := s.CP ++ [norm22 (s.heap b)], g := s.g ++ [b] } with hs1
    have hb1 : pad s.b .pinf = sq (k + 1) fun _ _ => .pinf := by
      rw [hb, pad_sq]
      simp only [ite_self]
    have ht1 : SIL.Tab D1 (k + 1) (firstArray (T ++ [(b, (k : ℤ))])) (fun _ _ => .pinf) s1 := by
      refine ⟨?_, ?_, ?_, ?_, ?_, hb1, ?_⟩
      · simp only [hs1, hcen, hx]
        exact tab_append (by rw [hD1, centroid_append_new _ _ hcD]) fun a _ ha => by rw [hD1, centroid_append_ne _ _ (hold a ha)]
      · simp only [hs1, hsiz]
        exact tab_append (by rw [hD1, size_append_new _ _ hcD]) fun a _ ha => by rw [hD1, size_append_ne _ _ (hold a ha)]
      · simp only [hs1, hCP, hx]
        exact tab_append (by rw [hD1, sqSum_append_self, sqSum_new hcD, norm22_enc, sum_sq_dot, zero_add])
          fun a _ ha => by rw [hD1, sqSum_append_ne _ _ (hold a ha)]
      · simp only [hs1, hg]
        exact tab_append hGk fun a a0 ha => hG a ((hmem a).mpr ⟨a0, ha⟩)
      · intro a a0 a1
        rcases hcase a a0 a1 with rfl | ⟨ha, ha'⟩
        · show s.heap _ = _
          rw [hGk, hx, hD1, vecSum_append_self, vecSum_new hcD]
          exact enc_congr fun i => (zero_add _).symm
        · show s.heap _ = _
          rw [hG a ha, hheap a a0 ha', hD1, vecSum_append_ne _ _ (hold a ha')]
      · intro _
        show pad (pad s.b .pinf) 0 = _
        rw [hb1, pad_sq]
    have hinj' : ∀ a a' : ℤ, 0 ≤ a → a < ((k + 1 : ℕ) : ℤ) → 0 ≤ a' → a' < ((k + 1 : ℕ) : ℤ) →
        firstArray (T ++ [(b, (k : ℤ))]) a = firstArray (T ++ [(b, (k : ℤ))]) a' → a = a' := by
      intro a a' a0 a1 b0 b1 e
      rcases hcase a a0 a1 with rfl | ⟨ha, ha'⟩ <;> rcases hcase a' b0 b1 with rfl | ⟨hb, hb'⟩
      · rfl
      · rw [hGk, hG a' hb] at e
        exact absurd e.symm (hF.last hb)
      · rw [hGk, hG a ha] at e
        exact absurd e (hF.last ha)
      · rw [hG a ha, hG a' hb] at e
        exact hinj a a' ha hb e
    obtain ⟨s', e1, e2, e3⟩ := SIL.rest_eq (x := pts b) (c := (k : ℤ)) ht1 (by omega) (by push_cast; omega)
      (fun a a0 a1 => by
        rw [hD1, labels_append, labels_doubled, Finset.mem_insert]
        rcases hcase a a0 a1 with rfl | ⟨-, ha'⟩
        · exact .inl rfl
        · exact .inr ((hcon a).mpr ⟨a0, ha'⟩)) (fun _ _ => .inr rfl) hinj'
    rw [← hD, hM] at e1 e2
    rw [← hk] at e1 e2 e3
    rw [outOf_eq hcon'] at e1
    refine ⟨s', ?_, ⟨e2, ?_, ?_⟩⟩
    · rw [← e1, SIL.update_eq]
      have n1 : (k : ℤ) = (s.sizes.length : ℤ) := by rw [hsiz, tab_length]
      simp only [bind_apply, get_apply, Res.bind_ok, ite_app, modify_apply, n1, if_true]
      rw [hs1, hx]
    · intro b' hb'
      rw [e3 b' fun a a0 a1 => hb' a ((hmem' a).mpr ⟨a0, a1⟩)]
      refine hoth b' fun a ha => ?_
      rw [← hG a ha]
      exact hb' a (by simp only [List.map_append, List.mem_append]; exact .inl ha)
    · intro a a' ha ha' e
      rw [hmem', hk] at ha ha'
      exact hinj' a a' ha.1 ha.2 ha'.1 ha'.2 e

/-- After any samples in order, whether the calls returned or raised. -/
theorem SIL.run_at {pts : ℕ → Pt d} {T : List (ℕ × ℤ)} (hT : InOrder (samples pts T)) (hF : FirstsOnce T) :
    SIL.At pts T (SIL.afterAll T (SIL.init fun b => enc (pts b))) := by
  induction T using List.reverseRecOn with
  | nil => exact SIL.init_at pts
  | append_singleton T p ih =>
    obtain ⟨b, c⟩ := p
    have hT' := hT
    rw [samples_append] at hT'
    obtain ⟨s', h1, h2⟩ := SIL.step_eq hT hF (ih hT'.prefix hF.prefix)
    rw [SIL.afterAll_append, h1]
    split_ifs
    · exact h2
    · exact h2

theorem vecSum_doubled {pts : ℕ → Pt d} {T : List (ℕ × ℤ)} {c : ℤ} (hc : c ∈ T.map Prod.snd) (i : Fin d) :
    vecSum (doubled (samples pts T)) c i = pts (firstArray T c) i + vecSum (samples pts T) c i := by
  induction T using List.reverseRecOn with
  | nil => simp at hc
  | append_singleton T p ih =>
    obtain ⟨b, a⟩ := p
    rw [samples_append]
    by_cases ha : a ∈ T.map Prod.snd
    · have ha' : a ∈ labels (samples pts T) := mem_labels_samples.mpr ha
      have hcT : c ∈ T.map Prod.snd := by
        simp only [List.map_append, List.mem_append, List.map_cons, List.map_nil, List.mem_singleton] at hc
        rcases hc with h | rfl
        · exact h
        · exact ha
      rw [doubled_old ha', firstArray_old hcT]
      by_cases hca : c = a
      · subst hca
        rw [vecSum_append_self, vecSum_append_self]
        simp only [ih hcT]
        ring
      · rw [vecSum_append_ne _ _ hca, vecSum_append_ne _ _ hca, ih hcT]
    · have ha' : a ∉ labels (samples pts T) := fun h => ha (mem_labels_samples.mp h)
      rw [doubled_new ha']
      by_cases hca : c = a
      · subst hca
        rw [firstArray_new ha, vecSum_append_self, vecSum_append_self, vecSum_append_self, vecSum_new ha',
          vecSum_new (by rwa [labels_doubled])]
        ring
      · have hcT : c ∈ T.map Prod.snd := by
          simp only [List.map_append, List.mem_append, List.map_cons, List.map_nil, List.mem_singleton] at hc
          exact hc.resolve_right hca
        rw [firstArray_old hcT, vecSum_append_ne _ _ hca, vecSum_append_ne _ _ hca, vecSum_append_ne _ _ hca, ih hcT]

/-! ## The range of the values -/

theorem silTerm_nonneg (P : Stream d) (i j : ℤ) : 0 ≤ silTerm P i j := by
  have h : ∀ v : Pt d, 0 ≤ dot v v := fun v => Finset.sum_nonneg fun i _ => mul_self_nonneg _
  rw [silTerm]
  refine add_nonneg (crossScatter_nonneg _ _ _) ?_
  split_ifs
  · exact div_nonneg (h _) (Nat.cast_nonneg _)
  · exact le_rfl

theorem silEntry_nonneg (S : Stream d) (i j : ℤ) : (∃ r, 0 ≤ r ∧ silEntry S i j = .fin r) ∨ silEntry S i j = .pinf := by
  unfold silEntry
  split
  · exact .inl ⟨_, silTerm_nonneg _ i j, rfl⟩
  · exact .inr rfl

theorem least_spec {A : Set XR} (hf : A.Finite) (hne : A.Nonempty) (hu : ∀ r ∈ A, Upper r) :
    Upper (least A) ∧ least A ∈ A ∧ ∀ r ∈ A, Le (least A) r := by
  obtain ⟨m, hm, h⟩ : ∃ m ∈ A, ∀ r ∈ A, Le m r := by
    obtain ⟨l, hl⟩ : ∃ l : List XR, ∀ r, r ∈ l ↔ r ∈ A := ⟨hf.toFinset.toList, by simp⟩
    obtain ⟨a, ha⟩ := hne
    obtain ⟨h1, -, h3, h4⟩ := foldl_pyMin (l := l) (fun r hr => hu r ((hl r).mp hr)) (hu a ha)
    refine ⟨_, ?_, fun r hr => h4 r ((hl r).mpr hr)⟩
    rcases h1 with h | h
    · rw [h]; exact ha
    · exact (hl _).mp h
  rw [least_eq (hu m hm) hm h]
  exact ⟨hu m hm, hm, h⟩

theorem greatest_spec {A : Set XR} (hf : A.Finite) (hne : A.Nonempty) (hu : ∀ r ∈ A, Upper r) :
    Upper (greatest A) ∧ greatest A ∈ A ∧ ∀ r ∈ A, Le r (greatest A) := by
  obtain ⟨m, hm, h⟩ : ∃ m ∈ A, ∀ r ∈ A, Le r m := by
    obtain ⟨l, hl⟩ : ∃ l : List XR, ∀ r, r ∈ l ↔ r ∈ A := ⟨hf.toFinset.toList, by simp⟩
    obtain ⟨a, ha⟩ := hne
    obtain ⟨h1, -, h3, h4⟩ := foldl_pyMax (l := l) (fun r hr => hu r ((hl r).mp hr)) (hu a ha)
    refine ⟨_, ?_, fun r hr => h4 r ((hl r).mpr hr)⟩
    rcases h1 with h | h
    · rw [h]; exact ha
    · exact (hl _).mp h
  rw [greatest_eq (hu m hm) hm h]
  exact ⟨hu m hm, hm, h⟩

theorem silCoef_cases {S : Stream d} {c : ℤ} (hc : lastLabel S = some c) (hk : 2 ≤ numClusters S) (i : ℤ) :
    (Undefined S c i ∧ silCoef S c i = .nan) ∨ (¬ Undefined S c i ∧ ∃ r, |r| ≤ 1 ∧ silCoef S c i = .fin r) := by
  obtain ⟨S0, x, rfl⟩ : ∃ S0 x, S = S0 ++ [(x, c)] := by
    rcases List.eq_nil_or_concat S with rfl | ⟨S0, ⟨x, a⟩, rfl⟩
    · simp [lastLabel] at hc
    · simp only [List.concat_eq_append, lastLabel_append, Option.some_inj] at hc
      subst hc
      exact ⟨S0, x, by simp⟩
  set S := S0 ++ [(x, c)] with hS
  have hcl : c ∈ labels S := by rw [hS, labels_append]; exact Finset.mem_insert_self _ _
  set m := silTerm S i c with hm
  have hm0 : 0 ≤ m := silTerm_nonneg _ _ _
  have hmc : silEntry S i c = .fin m := silEntry_self S0 x (.inr rfl)
  obtain ⟨j0, hj0, hj0c⟩ : ∃ j ∈ labels S, j ≠ c := Finset.exists_mem_ne (by rw [numClusters] at hk; omega) c
  set A := silOthers S c i with hA
  have hAf : A.Finite := by
    refine ((labels S).finite_toSet.image (silEntry S i)).subset ?_
    rintro r ⟨j, hj, -, rfl⟩
    exact ⟨j, hj, rfl⟩
  have hAn : A.Nonempty := ⟨_, j0, hj0, hj0c, rfl⟩
  have hAu : ∀ r ∈ A, Upper r := by
    rintro r ⟨j, -, -, rfl⟩
    exact silEntry_cases S i j
  have hA0 : ∀ r, XR.fin r ∈ A → 0 ≤ r := by
    rintro r ⟨j, -, -, e⟩
    rcases silEntry_nonneg S i j with ⟨q, hq, h⟩ | h
    · rw [h] at e; cases e; exact hq
    · rw [h] at e; cases e
  obtain ⟨l1, l2, l3⟩ := least_spec hAf hAn hAu
  set B := {silEntry S i c} ∪ A with hB
  have hBu : ∀ r ∈ B, Upper r := by
    rintro r (hr | hr)
    · rw [Set.mem_singleton_iff] at hr
      rw [hr]
      exact silEntry_cases S i c
    · exact hAu r hr
  obtain ⟨g1, g2, g3⟩ := greatest_spec (A := B) ((Set.finite_singleton _).union hAf) ⟨_, .inl rfl⟩ hBu
  have hmB : Le (.fin m) (greatest B) := g3 _ (.inl (by rw [Set.mem_singleton_iff, hmc]))
  rw [silCoef, ← hA, ← hB, hmc]
  rcases l1 with ⟨l, hl⟩ | hl
  · have hl0 : 0 ≤ l := hA0 l (hl ▸ l2)
    have hnp : ¬ ∀ j ∈ labels S, j ≠ c → silEntry S i j = .pinf := by
      intro h
      obtain ⟨j, hj, hjc, e⟩ := l2
      rw [hl, h j hj hjc] at e
      cases e
    rw [hl]
    rcases g1 with ⟨g, hg⟩ | hg
    · have hmg : m ≤ g := by
        rw [hg] at hmB
        rcases hmB with e | ⟨u, v, e1, e2, huv⟩
        · cases e
        · cases e1; cases e2; exact huv
      have hlg : l ≤ g := by
        have := g3 _ (.inr l2)
        rw [hl, hg] at this
        rcases this with e | ⟨u, v, e1, e2, huv⟩
        · cases e
        · cases e1; cases e2; exact huv
      rw [hg, XR.fin_sub]
      by_cases hg0 : g = 0
      · have hle : l = 0 := by linarith
        have hme : m = 0 := by linarith
        refine .inl ⟨.inr fun j hj => ?_, by rw [hg0, hle, hme, XR.fin_div, sub_zero, XR.idiv_zero_zero]⟩
        by_cases hjc : j = c
        · rw [hjc, hmc, hme]
        · have hjA : silEntry S i j ∈ A := ⟨j, hj, hjc, rfl⟩
          have := g3 _ (.inr hjA)
          rw [hg, hg0] at this
          rcases silEntry_nonneg S i j with ⟨q, hq, h⟩ | h
          · rw [h] at this ⊢
            rcases this with e | ⟨u, v, e1, e2, huv⟩
            · cases e
            · cases e1; cases e2
              rw [le_antisymm huv hq]
          · rw [h] at this
            rcases this with e | ⟨u, v, e1, e2, huv⟩
            · cases e
            · cases e1
      · have hgp : 0 < g := lt_of_le_of_ne (hm0.trans hmg) (Ne.symm hg0)
        refine .inr ⟨?_, (l - m) / g, ?_, XR.fin_div_of_ne _ hg0⟩
        · rintro (h | h)
          · exact hnp h
          · have : silEntry S i c = .fin g ∨ greatest B ∈ A := by
              rcases g2 with e | e
              · rw [Set.mem_singleton_iff, hg] at e
                exact .inl e.symm
              · exact .inr e
            rcases this with e | ⟨j, hj, -, e⟩
            · rw [h c hcl] at e
              cases e
              exact hg0 rfl
            · rw [hg, h j hj] at e
              cases e
              exact hg0 rfl
        · rw [abs_div, abs_of_pos hgp, div_le_one hgp, abs_le]
          constructor <;> linarith
    · refine .inr ⟨?_, 0, by simp, by rw [hg]; rfl⟩
      rintro (h | h)
      · exact hnp h
      · rw [hg] at g2
        rcases g2 with e | ⟨j, hj, -, e⟩
        · rw [Set.mem_singleton_iff, hmc] at e
          cases e
        · rw [h j hj] at e
          cases e
  · have hgp : greatest B = .pinf := by
      have := g3 _ (.inr l2)
      rw [hl] at this
      rcases this with e | ⟨u, v, e1, -, -⟩
      · exact e
      · cases e1
    refine .inl ⟨.inl fun j hj hjc => ?_, by rw [hl, hgp]; rfl⟩
    have := l3 _ ⟨j, hj, hjc, rfl⟩
    rw [hl] at this
    rcases this with e | ⟨u, v, e1, -, -⟩
    · exact e
    · cases e1

theorem finset_sum_nan {s : Finset ℤ} {f : ℤ → XR} {i : ℤ} (hi : i ∈ s) (h : f i = .nan) : ∑ i ∈ s, f i = .nan := by
  rw [← Finset.add_sum_erase s f hi, h, XR.nan_add]

theorem finset_sum_fin (s : Finset ℤ) (f : ℤ → ℝ) : ∑ i ∈ s, XR.fin (f i) = .fin (∑ i ∈ s, f i) := by
  induction s using Finset.induction_on with
  | empty => rfl
  | insert a s ha ih => rw [Finset.sum_insert ha, Finset.sum_insert ha, ih, XR.fin_add]

/-- The value is NaN if some coefficient is undefined, and a number between -1 and 1 otherwise. -/
theorem silOutput_cases {S : Stream d} {c : ℤ} (hc : lastLabel S = some c) (hk : 2 ≤ numClusters S) :
    ((∃ i ∈ labels S, Undefined S c i) ∧ silOutput S c = .nan)
      ∨ ((¬ ∃ i ∈ labels S, Undefined S c i) ∧ ∃ r, |r| ≤ 1 ∧ silOutput S c = .fin r) := by
  have key := fun i => silCoef_cases hc hk i
  by_cases h : ∃ i ∈ labels S, Undefined S c i
  · obtain ⟨i, hi, hu⟩ := h
    refine .inl ⟨⟨i, hi, hu⟩, ?_⟩
    rcases key i with ⟨-, e⟩ | ⟨n, -⟩
    · rw [silOutput, finset_sum_nan hi e, XR.mul_nan]
    · exact absurd hu n
  · refine .inr ⟨h, ?_⟩
    push Not at h
    have : ∀ i, ∃ r, i ∈ labels S → |r| ≤ 1 ∧ silCoef S c i = .fin r := by
      intro i
      by_cases hi : i ∈ labels S
      · rcases key i with ⟨hu, -⟩ | ⟨-, r, h1, h2⟩
        · exact absurd hu (h i hi)
        · exact ⟨r, fun _ => ⟨h1, h2⟩⟩
      · exact ⟨0, fun h => absurd h hi⟩
    choose r hr using this
    have hkp : (0 : ℝ) < numClusters S := by exact_mod_cast (by omega : 0 < numClusters S)
    refine ⟨1 / numClusters S * ∑ i ∈ labels S, r i, ?_, ?_⟩
    · rw [abs_mul, abs_of_pos (by positivity), one_div, inv_mul_le_iff₀ hkp, mul_one]
      calc |∑ i ∈ labels S, r i| ≤ ∑ i ∈ labels S, |r i| := Finset.abs_sum_le_sum_abs _ _
        _ ≤ ∑ i ∈ labels S, (1 : ℝ) := Finset.sum_le_sum fun i hi => (hr i hi).1
        _ = numClusters S := by simp [numClusters]
    · rw [silOutput, Finset.sum_congr rfl fun i hi => (hr i hi).2, finset_sum_fin, XR.fin_mul]

end Verif.V0

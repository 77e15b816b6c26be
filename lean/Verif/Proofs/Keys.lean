import Verif.Proofs.Enc
import Mathlib.Data.List.Nodup
import Mathlib.Algebra.BigOperators.Group.Finset.Lemmas
import Mathlib.Algebra.BigOperators.Ring.Finset

/-!
# Key lists

The arrays of a CVI object are tables indexed by internal label.  A table is written `ks.map f` where `ks` is the list of
labels in the order of their internal labels and `f` gives the entry of a label.
-/

namespace Verif

/-! ## Labels in order of first occurrence -/

/-- One step of `firstSeen`. -/
def addKey (ks : List ℤ) (c : ℤ) : List ℤ := if c ∈ ks then ks else ks ++ [c]

/-- The distinct elements of a list in order of first occurrence. -/
def firstSeen (l : List ℤ) : List ℤ := l.foldl addKey []

theorem firstSeen_append (l : List ℤ) (c : ℤ) : firstSeen (l ++ [c]) = addKey (firstSeen l) c := by
  simp [firstSeen]

theorem mem_addKey {ks : List ℤ} {c a : ℤ} : a ∈ addKey ks c ↔ a ∈ ks ∨ a = c := by
  unfold addKey; split
  · constructor
    · exact Or.inl
    · rintro (h | rfl) <;> assumption
  · simp

theorem nodup_addKey {ks : List ℤ} {c : ℤ} (h : ks.Nodup) : (addKey ks c).Nodup := by
  unfold addKey; split
  · exact h
  · rename_i hc
    rw [List.nodup_append]
    refine ⟨h, by simp, ?_⟩
    intro a ha b hb
    simp at hb; subst hb; rintro rfl; exact hc ha

theorem foldl_addKey_nodup (l ks : List ℤ) (h : ks.Nodup) : (l.foldl addKey ks).Nodup := by
  induction l generalizing ks with
  | nil => exact h
  | cons a l ih => exact ih _ (nodup_addKey h)

theorem mem_foldl_addKey (l ks : List ℤ) (a : ℤ) : a ∈ l.foldl addKey ks ↔ a ∈ ks ∨ a ∈ l := by
  induction l generalizing ks with
  | nil => simp
  | cons b l ih => simp [ih, mem_addKey, or_assoc]

theorem firstSeen_nodup (l : List ℤ) : (firstSeen l).Nodup := foldl_addKey_nodup l [] List.nodup_nil

theorem mem_firstSeen {l : List ℤ} {a : ℤ} : a ∈ firstSeen l ↔ a ∈ l := by
  simp [firstSeen, mem_foldl_addKey]

/-! ## The label map -/

/-- The label map that numbers the labels `ks` in order. -/
def mapOf (ks : List ℤ) : LabelMap := ks.zipIdx

@[simp] theorem mapOf_length (ks : List ℤ) : (mapOf ks).length = ks.length := by simp [mapOf]

theorem lookup_zipIdx (ks : List ℤ) (c : ℤ) (n : ℕ) :
    (ks.zipIdx n).lookup c = if c ∈ ks then some (n + ks.idxOf c) else none := by
  induction ks generalizing n with
  | nil => simp
  | cons a ks ih =>
    by_cases h : c = a
    · subst h; simp [List.zipIdx_cons]
    · have h' : (c == a) = false := by simpa using h
      have h'' : a ≠ c := fun e => h e.symm
      rw [List.zipIdx_cons, List.lookup_cons, h', ih]
      by_cases hm : c ∈ ks
      · simp [hm, List.idxOf_cons_ne _ h'']; omega
      · simp [hm, h]

theorem lookup_mapOf (ks : List ℤ) (c : ℤ) :
    (mapOf ks).lookup c = if c ∈ ks then some (ks.idxOf c) else none := by
  rw [mapOf, lookup_zipIdx]; simp

theorem getInternalLabel_mapOf (ks : List ℤ) (c : ℤ) :
    (mapOf ks).getInternalLabel c = (ks.idxOf c, mapOf (addKey ks c)) := by
  unfold LabelMap.getInternalLabel addKey
  rw [lookup_mapOf]
  by_cases h : c ∈ ks
  · simp [h]
  · simp [h, mapOf, List.zipIdx_append]

/-! ## Tables -/

variable {F : Type}

section tables
variable {α : Type}

theorem getElem?_map_idxOf {ks : List ℤ} {c : ℤ} (h : c ∈ ks) (f : ℤ → α) :
    (ks.map f)[ks.idxOf c]? = some (f c) := by
  have hl := List.idxOf_lt_length_of_mem h
  rw [List.getElem?_map, List.getElem?_eq_getElem hl]
  simp

theorem idxOf_inj {ks : List ℤ} {a c : ℤ} (ha : a ∈ ks) : ks.idxOf a = ks.idxOf c ↔ a = c := by
  constructor
  · intro h
    have hl := List.idxOf_lt_length_of_mem ha
    have hc : ks.idxOf c < ks.length := h ▸ hl
    have e1 : ks[ks.idxOf a] = a := by simp
    have e2 : ks[ks.idxOf c] = c := by simp
    rw [← e1, ← e2]
    congr 1
  · rintro rfl; rfl

theorem map_set {ks : List ℤ} (hn : ks.Nodup) {c : ℤ} (f f' : ℤ → α) (x : α) (hx : x = f' c)
    (h : ∀ a ∈ ks, a ≠ c → f' a = f a) : (ks.map f).set (ks.idxOf c) x = ks.map f' := by
  subst hx
  apply List.ext_getElem
  · simp
  · intro i h1 h2
    simp only [List.length_map] at h2
    rw [List.getElem_set]
    split
    · rename_i hi
      subst hi
      simp
    · rename_i hi
      rw [List.getElem_map, List.getElem_map]
      refine (h _ (List.getElem_mem _) ?_).symm
      intro e
      apply hi
      rw [← e]
      exact hn.idxOf_getElem i h2

theorem map_append_new {ks : List ℤ} {c : ℤ} (hc : c ∉ ks) (f f' : ℤ → α) (x : α) (hx : x = f' c)
    (h : ∀ a ∈ ks, a ≠ c → f' a = f a) : ks.map f ++ [x] = (ks ++ [c]).map f' := by
  subst hx
  rw [List.map_append]
  congr 1
  apply List.map_congr_left
  intro a ha
  exact (h a ha (fun e => hc (e ▸ ha))).symm

theorem range_eq_map_idxOf {ks : List ℤ} (hn : ks.Nodup) : List.range ks.length = ks.map fun c => ks.idxOf c := by
  apply List.ext_getElem
  · simp
  · intro i h1 h2
    simp [hn.idxOf_getElem]

theorem mapE_map {α β γ : Type} (f : β → Except PyErr γ) (h : α → β) (l : List α) :
    mapE f (l.map h) = mapE (fun a => f (h a)) l := by
  induction l with
  | nil => rfl
  | cons a l ih => simp [mapE, ih]

theorem mapE_range_keys {β : Type} {ks : List ℤ} (hn : ks.Nodup) {f : ℕ → Except PyErr β} {g : ℤ → β}
    (h : ∀ c ∈ ks, f (ks.idxOf c) = .ok (g c)) : mapE f (List.range ks.length) = .ok (ks.map g) := by
  rw [range_eq_map_idxOf hn, mapE_map]
  exact mapE_ok h

theorem columnNew_keys [Zero F] {ks : List ℤ} (hn : ks.Nodup) {f : ℕ → Except PyErr F} {g : ℤ → F}
    (h : ∀ c ∈ ks, f (ks.idxOf c) = .ok (g c)) : columnNew ks.length f = .ok (ks.map g ++ [0]) := by
  simp [columnNew, mapE_range_keys hn h]

theorem columnOld_keys [Zero F] {ks : List ℤ} (hn : ks.Nodup) {c : ℤ} {f : ℕ → Except PyErr F} {g : ℤ → F}
    (h : ∀ a ∈ ks, a ≠ c → f (ks.idxOf a) = .ok (g a)) :
    columnOld ks.length (ks.idxOf c) f = .ok (ks.map fun a => if a = c then 0 else g a) := by
  apply mapE_range_keys hn
  intro a ha
  by_cases e : a = c
  · subst e; simp
  · rw [if_neg (fun h' => e ((idxOf_inj ha).mp h')), if_neg e]
    exact h a ha e

end tables

/-! ## Square matrices indexed by the keys -/

/-- The matrix with entry `g a b` in the row of `a` and the column of `b`. -/
def sqMat (ks : List ℤ) (g : ℤ → ℤ → F) : Arr2 F := ⟨ks.length, ks.map fun a => ks.map (g a)⟩

@[simp] theorem sqMat_cols (ks : List ℤ) (g : ℤ → ℤ → F) : (sqMat ks g).cols = ks.length := rfl
@[simp] theorem sqMat_rows_length (ks : List ℤ) (g : ℤ → ℤ → F) : (sqMat ks g).rows.length = ks.length := by simp [sqMat]

theorem sqMat_congr {ks : List ℤ} {g g' : ℤ → ℤ → F} (h : ∀ a ∈ ks, ∀ b ∈ ks, g a b = g' a b) :
    sqMat ks g = sqMat ks g' := by
  unfold sqMat
  congr 1
  apply List.map_congr_left
  intro a ha
  apply List.map_congr_left
  intro b hb
  exact h a ha b hb

theorem sqMat_row {ks : List ℤ} {g : ℤ → ℤ → F} {a : ℤ} (ha : a ∈ ks) : (sqMat ks g).row (ks.idxOf a) = .ok (ks.map (g a)) := by
  simp only [Arr2.row, sqMat]
  rw [getElem?_map_idxOf ha]

theorem sqMat_get {ks : List ℤ} {g : ℤ → ℤ → F} {a b : ℤ} (ha : a ∈ ks) (hb : b ∈ ks) :
    (sqMat ks g).get (ks.idxOf a) (ks.idxOf b) = .ok (g a b) := by
  simp only [Arr2.get, sqMat]
  rw [getElem?_map_idxOf ha, ]
  simp only
  rw [getElem?_map_idxOf hb]

theorem sqMat_get_getElem {ks : List ℤ} {g : ℤ → ℤ → F} {i j : ℕ} (hi : i < ks.length) (hj : j < ks.length) :
    (sqMat ks g).get i j = .ok (g ks[i] ks[j]) := by
  simp [Arr2.get, sqMat, hi, hj]

theorem sqMat_col {ks : List ℤ} {g : ℤ → ℤ → F} {b : ℤ} (hb : b ∈ ks) :
    (sqMat ks g).col (ks.idxOf b) = .ok (ks.map fun a => g a b) := by
  have hl := List.idxOf_lt_length_of_mem hb
  simp only [Arr2.col, sqMat, hl, if_true]
  rw [mapE_map]
  apply mapE_ok
  intro a _
  rw [getElem?_map_idxOf hb]

theorem sqMat_setRow [Zero F] {ks : List ℤ} (hn : ks.Nodup) {g : ℤ → ℤ → F} {c : ℤ} (hc : c ∈ ks) (r : ℤ → F) :
    (sqMat ks g).setRow (ks.idxOf c) (ks.map r) = .ok (sqMat ks fun a b => if a = c then r b else g a b) := by
  have hl := List.idxOf_lt_length_of_mem hc
  have : (ks.map fun a => ks.map (g a)).set (ks.idxOf c) (ks.map r) =
      ks.map fun a => ks.map fun b => if a = c then r b else g a b := by
    apply map_set hn
    · simp
    · intro a _ ha; simp [ha]
  simp [Arr2.setRow, sqMat, hl, Vec.broadcastTo, this]

theorem sqMat_setCol [Zero F] {ks : List ℤ} (hn : ks.Nodup) {g : ℤ → ℤ → F} {c : ℤ} (hc : c ∈ ks) (r : ℤ → F) :
    (sqMat ks g).setCol (ks.idxOf c) (ks.map r) = .ok (sqMat ks fun a b => if b = c then r a else g a b) := by
  have hl := List.idxOf_lt_length_of_mem hc
  have : List.zipWith (fun (row : Vec F) x => row.set (ks.idxOf c) x) (ks.map fun a => ks.map (g a)) (ks.map r) =
      ks.map fun a => ks.map fun b => if b = c then r a else g a b := by
    rw [List.zipWith_map, List.zipWith_self]
    apply List.map_congr_left
    intro a _
    apply map_set hn
    · simp
    · intro b _ hb; simp [hb]
  simp [Arr2.setCol, sqMat, hl, Vec.broadcastTo, this]

/-- `D[i, :] = r; D[:, i] = q` -/
theorem sqMat_setCross [Zero F] {ks : List ℤ} (hn : ks.Nodup) {g g' : ℤ → ℤ → F} {c : ℤ} (hc : c ∈ ks) (r q : ℤ → F)
    (hr : ∀ b ∈ ks, b ≠ c → g' c b = r b) (hq : ∀ a ∈ ks, g' a c = q a)
    (hg : ∀ a ∈ ks, ∀ b ∈ ks, a ≠ c → b ≠ c → g' a b = g a b) :
    setCross (sqMat ks g) (ks.idxOf c) (ks.map r) (ks.map q) = .ok (sqMat ks g') := by
  rw [setCross, sqMat_setRow hn hc, except_bind_ok, sqMat_setCol hn hc]
  congr 1
  apply sqMat_congr
  intro a ha b hb
  by_cases h2 : b = c
  · subst h2; simp [hq a ha]
  · by_cases h1 : a = c
    · subst h1; simp [h2, hr b hb h2]
    · simp [h1, h2, hg a ha b hb h1 h2]

theorem enlarge_sqMat [Zero F] {ks : List ℤ} {c : ℤ} (hc : c ∉ ks) (g : ℤ → ℤ → F) :
    enlarge ks.length (sqMat ks g) =
      .ok (sqMat (ks ++ [c]) fun a b => if a = c ∨ b = c then 0 else g a b) := by
  have h1 : (sqMat ks g).broadcastTo ks.length ks.length = .ok (sqMat ks g) := by
    simp [Arr2.broadcastTo]; rfl
  rw [enlarge, h1, except_bind_ok, except_pure]
  congr 1
  unfold sqMat
  simp only [List.length_append, List.length_cons, List.length_nil, Nat.zero_add]
  congr 1
  rw [List.map_append]
  congr 1
  · rw [List.map_map]
    apply List.map_congr_left
    intro a ha
    have hac : a ≠ c := fun e => hc (e ▸ ha)
    simp only [Function.comp, List.map_append, List.map_cons, List.map_nil, hac, false_or, if_true]
    congr 1
    apply List.map_congr_left
    intro b hb
    have hbc : b ≠ c := fun e => hc (e ▸ hb)
    simp [hbc]
  · simp only [List.map_cons, List.map_nil, true_or, if_true]
    congr 1
    rw [List.map_const']
    simp [Vec.zeros]

theorem idxOf_append_new {ks : List ℤ} {c : ℤ} (hc : c ∉ ks) : (ks ++ [c]).idxOf c = ks.length := by
  rw [List.idxOf_append_of_notMem hc]; simp

theorem nodup_append_new {ks : List ℤ} {c : ℤ} (hn : ks.Nodup) (hc : c ∉ ks) : (ks ++ [c]).Nodup := by
  have := nodup_addKey (c := c) hn
  rwa [addKey, if_neg hc] at this

/-- The distance matrix after a new cluster `c`. -/
theorem distNew_sqMat [Zero F] {ks : List ℤ} (hn : ks.Nodup) {c : ℤ} (hc : c ∉ ks) {D : Arr2 F} {g g' : ℤ → ℤ → F}
    {f : ℕ → Except PyErr F} (hD : ks ≠ [] → D = sqMat ks g)
    (hf : ∀ a ∈ ks, f (ks.idxOf a) = .ok (g' c a)) (hs : ∀ a ∈ ks, g' a c = g' c a) (h0 : g' c c = 0)
    (hg : ∀ a ∈ ks, ∀ b ∈ ks, g' a b = g a b) :
    distNew ks.length ks.length D f = .ok (sqMat (ks ++ [c]) g') := by
  unfold distNew
  split
  · rename_i h
    have : ks = [] := by simpa using h
    subst this
    simp [sqMat, Arr2.zeros, Vec.zeros, h0]
  · rename_i h
    have hne : ks ≠ [] := by rintro rfl; simp at h
    rw [hD hne, enlarge_sqMat hc, except_bind_ok, columnNew_keys hn hf, except_bind_ok]
    have h1 : ks.map (fun a => g' c a) ++ [0] = (ks ++ [c]).map (g' c) := by
      simp [h0]
    have hq : ∀ a ∈ ks ++ [c], g' a c = g' c a := by
      intro a ha
      rcases List.mem_append.mp ha with ha | ha
      · exact hs a ha
      · simp at ha; subst ha; rfl
    conv_lhs => rw [← idxOf_append_new hc]
    rw [h1]
    apply sqMat_setCross (nodup_append_new hn hc) (by simp)
    · intro b _ _; rfl
    · exact hq
    · intro a ha b hb hac hbc
      have ha' : a ∈ ks := by simpa [hac] using ha
      have hb' : b ∈ ks := by simpa [hbc] using hb
      simp [hac, hbc, hg a ha' b hb']

/-! ## Entries above the diagonal -/

theorem mem_triuPairs {n i j : ℕ} : (i, j) ∈ Arr2.triuPairs n ↔ i < j ∧ j < n := by
  simp only [Arr2.triuPairs, List.mem_flatMap, List.mem_map, List.mem_filter, List.mem_range, Prod.mk.injEq,
    decide_eq_true_eq]
  constructor
  · rintro ⟨a, ha, b, ⟨hb, hab⟩, rfl, rfl⟩; exact ⟨hab, hb⟩
  · rintro ⟨h1, h2⟩; exact ⟨i, by omega, j, ⟨h2, h1⟩, rfl, rfl⟩

/-- `D` has the entries `g a b` above the diagonal. -/
def Upper (ks : List ℤ) (g : ℤ → ℤ → F) (D : Arr2 F) : Prop :=
  D.rows.length = ks.length ∧ D.cols = ks.length ∧
    ∀ i j (hi : i < j) (hj : j < ks.length), D.get i j = .ok (g (ks[i]'(hi.trans hj)) ks[j])

theorem upper_sqMat (ks : List ℤ) (g : ℤ → ℤ → F) : Upper ks g (sqMat ks g) :=
  ⟨by simp, rfl, fun _ _ hi hj => sqMat_get_getElem (hi.trans hj) hj⟩

/-- The list of entries above the diagonal. -/
def upperVals (ks : List ℤ) (g : ℤ → ℤ → F) : List F :=
  (Arr2.triuPairs ks.length).map fun p => g (ks.getD p.1 0) (ks.getD p.2 0)

theorem triu_upper {ks : List ℤ} {g : ℤ → ℤ → F} {D : Arr2 F} (h : Upper ks g D) : D.triu ks.length = .ok (upperVals ks g) := by
  apply mapE_ok
  rintro ⟨i, j⟩ hp
  obtain ⟨hij, hj⟩ := mem_triuPairs.mp hp
  have hi := hij.trans hj
  simp [h.2.2 i j hij hj, hi, hj]

theorem mem_upperVals {ks : List ℤ} (hn : ks.Nodup) {g : ℤ → ℤ → F} (hs : ∀ a ∈ ks, ∀ b ∈ ks, g a b = g b a) {x : F} :
    x ∈ upperVals ks g ↔ ∃ a ∈ ks, ∃ b ∈ ks, a ≠ b ∧ x = g a b := by
  simp only [upperVals, List.mem_map, Prod.exists, mem_triuPairs]
  constructor
  · rintro ⟨i, j, ⟨hij, hj⟩, rfl⟩
    have hi := hij.trans hj
    refine ⟨ks[i], List.getElem_mem _, ks[j], List.getElem_mem _, ?_, by simp [hi, hj]⟩
    intro e
    have := (List.Nodup.getElem_inj_iff hn).mp e
    omega
  · rintro ⟨a, ha, b, hb, hab, rfl⟩
    have hia := List.idxOf_lt_length_of_mem ha
    have hib := List.idxOf_lt_length_of_mem hb
    have hne : ks.idxOf a ≠ ks.idxOf b := fun e => hab ((idxOf_inj ha).mp e)
    rcases Nat.lt_or_gt_of_ne hne with h | h
    · exact ⟨_, _, ⟨h, hib⟩, by simp [hia, hib]⟩
    · exact ⟨_, _, ⟨h, hia⟩, by simp [hia, hib, hs a ha b hb]⟩

/-- The batch double loop builds the upper triangular matrix. -/
theorem upperTri_ok [Zero F] {n : ℕ} {f : ℕ → ℕ → Except PyErr F} {g : ℕ → ℕ → F}
    (h : ∀ i j, i < j → j < n → f i j = .ok (g i j)) :
    Arr2.upperTri n f = .ok ⟨n, (List.range n).map fun i => (List.range n).map fun j => if i < j then g i j else 0⟩ := by
  unfold Arr2.upperTri
  have h1 : mapE (fun i => mapE (fun j => if i < j then f i j else .ok 0) (List.range n)) (List.range n) =
      .ok ((List.range n).map fun i => (List.range n).map fun j => if i < j then g i j else 0) := by
    apply mapE_ok
    intro i hi
    apply mapE_ok
    intro j hj
    split
    · rename_i hij
      exact h i j hij (List.mem_range.mp hj)
    · rfl
  rw [h1]
  rfl

/-- A matrix given by its entries at index pairs. -/
def natMat (n : ℕ) (g : ℕ → ℕ → F) : Arr2 F := ⟨n, (List.range n).map fun i => (List.range n).map fun j => g i j⟩

theorem natMat_transpose [Zero F] (n : ℕ) (g : ℕ → ℕ → F) : (natMat n g).transpose = natMat n fun i j => g j i := by
  simp only [Arr2.transpose, natMat, List.length_map, List.length_range, List.map_map]
  congr 1
  apply List.map_congr_left
  intro j hj
  apply List.map_congr_left
  intro i _
  have := List.mem_range.mp hj
  simp [this]

theorem natMat_bin [Zero F] (f : F → F → F) (n : ℕ) (g g' : ℕ → ℕ → F) :
    (natMat n g).bin f (natMat n g') = .ok (natMat n fun i j => f (g i j) (g' i j)) := by
  have hb : ∀ h : ℕ → ℕ → F, (natMat n h).broadcastTo n n = .ok (natMat n h) := by
    intro h; simp [Arr2.broadcastTo, natMat]
  have e1 : (if (natMat n g).rows.length = 1 then (natMat n g').rows.length else (natMat n g).rows.length) = n := by
    simp [natMat]
  have e2 : (if (natMat n g).cols = 1 then (natMat n g').cols else (natMat n g).cols) = n := by
    exact ite_self _
  unfold Arr2.bin
  simp only [e1, e2, hb, except_bind_ok, except_pure]
  congr 1
  simp only [natMat, List.zipWith_map, List.zipWith_self]

theorem natMat_add (n : ℕ) (g g' : ℕ → ℕ → XR) :
    (natMat n g).add (natMat n g') = .ok (natMat n fun i j => g i j + g' i j) := natMat_bin _ n g g'

theorem natMat_congr {n : ℕ} {g g' : ℕ → ℕ → F} (h : ∀ i j, i < n → j < n → g i j = g' i j) :
    natMat n g = natMat n g' := by
  unfold natMat
  congr 1
  apply List.map_congr_left
  intro i hi
  apply List.map_congr_left
  intro j hj
  exact h i j (List.mem_range.mp hi) (List.mem_range.mp hj)

theorem sqMat_eq_natMat (ks : List ℤ) (g : ℤ → ℤ → F) : sqMat ks g = natMat ks.length fun i j => g (ks.getD i 0) (ks.getD j 0) := by
  unfold sqMat natMat
  congr 1
  apply List.ext_getElem
  · simp
  · intro i h1 h2
    simp only [List.getElem_map, List.getElem_range]
    apply List.ext_getElem
    · simp
    · intro j h3 h4
      simp at h1 h3
      simp [h1, h3]

/-- `D + D.T` of the upper triangular matrix: the full symmetric matrix with zero diagonal. -/
theorem symmetrise {ks : List ℤ} (hn : ks.Nodup) {f : ℕ → ℕ → Except PyErr XR} {g : ℤ → ℤ → XR}
    (hf : ∀ a ∈ ks, ∀ b ∈ ks, f (ks.idxOf a) (ks.idxOf b) = .ok (g a b))
    (hs : ∀ a ∈ ks, ∀ b ∈ ks, g a b = g b a) :
    ∃ U, Arr2.upperTri ks.length f = .ok U ∧ Upper ks g U ∧
      U.add U.transpose = .ok (sqMat ks fun a b => if a = b then 0 else g a b) ∧
      U.transpose.add U.transpose.transpose = .ok (sqMat ks fun a b => if a = b then 0 else g a b) := by
  have hf' : ∀ i j, i < j → j < ks.length → f i j = .ok (g (ks.getD i 0) (ks.getD j 0)) := by
    intro i j hij hj
    have hi := hij.trans hj
    have := hf ks[i] (List.getElem_mem _) ks[j] (List.getElem_mem _)
    rw [hn.idxOf_getElem, hn.idxOf_getElem] at this
    simpa [hi, hj] using this
  have hadd : ∀ i j, i < ks.length → j < ks.length →
      (if i < j then g (ks.getD i 0) (ks.getD j 0) else 0) + (if j < i then g (ks.getD j 0) (ks.getD i 0) else 0) =
      if ks.getD i 0 = ks.getD j 0 then 0 else g (ks.getD i 0) (ks.getD j 0) := by
    intro i j hi hj
    have e : ks.getD i 0 = ks.getD j 0 ↔ i = j := by
      have e1 : ks.getD i 0 = ks[i] := by simp [hi]
      have e2 : ks.getD j 0 = ks[j] := by simp [hj]
      rw [e1, e2]
      exact List.Nodup.getElem_inj_iff hn
    rcases Nat.lt_trichotomy i j with h | h | h
    · have h1 : ¬ j < i := by omega
      have h2 : i ≠ j := by omega
      simp only [e, h, h1, h2, if_true, if_false, add_zero]
    · subst h; simp
    · have h1 : ¬ i < j := by omega
      have h2 : i ≠ j := by omega
      simp only [e, h, h1, h2, if_true, if_false, zero_add]
      exact hs _ (by simp [hj]) _ (by simp [hi])
  refine ⟨natMat ks.length fun i j => if i < j then g (ks.getD i 0) (ks.getD j 0) else (0 : XR), upperTri_ok hf', ?_, ?_, ?_⟩
  · refine ⟨by simp [natMat], rfl, ?_⟩
    intro i j hij hj
    have hi := hij.trans hj
    simp [Arr2.get, natMat, hi, hj, hij]
  · rw [natMat_transpose, natMat_add, sqMat_eq_natMat]
    congr 1
    exact natMat_congr hadd
  · rw [natMat_transpose, natMat_transpose, natMat_add, sqMat_eq_natMat]
    congr 1
    apply natMat_congr
    intro i j hi hj
    rw [add_comm]
    exact hadd i j hi hj

theorem Upper.congr {ks : List ℤ} (hn : ks.Nodup) {g g' : ℤ → ℤ → F} {D : Arr2 F} (h : Upper ks g D)
    (hg : ∀ a ∈ ks, ∀ b ∈ ks, a ≠ b → g a b = g' a b) : Upper ks g' D := by
  refine ⟨h.1, h.2.1, fun i j hi hj => ?_⟩
  rw [h.2.2 i j hi hj, hg _ (List.getElem_mem _) _ (List.getElem_mem _)]
  intro e
  have := (List.Nodup.getElem_inj_iff hn).mp e
  omega

end Verif

import Verif.Proofs.SpecStep

/-! # `np.min` and `np.max` -/

namespace Verif
open Spec

variable {d : ℕ}

theorem foldl_min_fin (l : List XR) (a : ℝ) (h : ∀ x ∈ l, ∃ r, x = XR.fin r) :
    ∃ m, l.foldl XR.min (.fin a) = .fin m ∧ (m = a ∨ XR.fin m ∈ l) ∧ m ≤ a ∧ ∀ r, XR.fin r ∈ l → m ≤ r := by
  induction l generalizing a with
  | nil => exact ⟨a, rfl, Or.inl rfl, le_rfl, by simp⟩
  | cons x l ih =>
    obtain ⟨r, rfl⟩ := h x (by simp)
    obtain ⟨m, h1, h2, h3, h4⟩ := ih (Min.min a r) fun y hy => h y (by simp [hy])
    refine ⟨m, by simpa using h1, ?_, h3.trans (min_le_left _ _), ?_⟩
    · rcases h2 with h2 | h2
      · rcases min_choice a r with e | e
        · exact Or.inl (h2.trans e)
        · right; rw [h2, e]; simp
      · right; simp [h2]
    · intro r' hr'
      rcases List.mem_cons.mp hr' with e | e
      · rw [XR.fin.inj e]; exact h3.trans (min_le_right _ _)
      · exact h4 r' e

theorem foldl_max_fin (l : List XR) (a : ℝ) (h : ∀ x ∈ l, ∃ r, x = XR.fin r) :
    ∃ m, l.foldl XR.max (.fin a) = .fin m ∧ (m = a ∨ XR.fin m ∈ l) ∧ a ≤ m ∧ ∀ r, XR.fin r ∈ l → r ≤ m := by
  induction l generalizing a with
  | nil => exact ⟨a, rfl, Or.inl rfl, le_rfl, by simp⟩
  | cons x l ih =>
    obtain ⟨r, rfl⟩ := h x (by simp)
    obtain ⟨m, h1, h2, h3, h4⟩ := ih (Max.max a r) fun y hy => h y (by simp [hy])
    refine ⟨m, by simpa using h1, ?_, (le_max_left _ _).trans h3, ?_⟩
    · rcases h2 with h2 | h2
      · rcases max_choice a r with e | e
        · exact Or.inl (h2.trans e)
        · right; rw [h2, e]; simp
      · right; simp [h2]
    · intro r' hr'
      rcases List.mem_cons.mp hr' with e | e
      · rw [XR.fin.inj e]; exact (le_max_right _ _).trans h3
      · exact h4 r' e

/-- `np.min` of finite numbers: the least one. -/
theorem amin_fin {l : List XR} (hne : l ≠ []) (h : ∀ x ∈ l, ∃ r, x = XR.fin r) :
    Vec.amin l = .ok (.fin (sInf {r | XR.fin r ∈ l})) := by
  cases l with
  | nil => exact absurd rfl hne
  | cons x l =>
    obtain ⟨a, rfl⟩ := h x (by simp)
    obtain ⟨m, h1, h2, h3, h4⟩ := foldl_min_fin l a fun y hy => h y (by simp [hy])
    have : IsLeast {r | XR.fin r ∈ (XR.fin a :: l)} m := by
      constructor
      · rcases h2 with rfl | h2
        · simp
        · simp [h2]
      · intro r hr
        rcases List.mem_cons.mp hr with e | e
        · rw [XR.fin.inj e]; exact h3
        · exact h4 r e
    rw [Vec.amin, h1, this.csInf_eq]

/-- `np.max` of finite numbers: the greatest one. -/
theorem amax_fin {l : List XR} (hne : l ≠ []) (h : ∀ x ∈ l, ∃ r, x = XR.fin r) :
    Vec.amax l = .ok (.fin (sSup {r | XR.fin r ∈ l})) := by
  cases l with
  | nil => exact absurd rfl hne
  | cons x l =>
    obtain ⟨a, rfl⟩ := h x (by simp)
    obtain ⟨m, h1, h2, h3, h4⟩ := foldl_max_fin l a fun y hy => h y (by simp [hy])
    have : IsGreatest {r | XR.fin r ∈ (XR.fin a :: l)} m := by
      constructor
      · rcases h2 with rfl | h2
        · simp
        · simp [h2]
      · intro r hr
        rcases List.mem_cons.mp hr with e | e
        · rw [XR.fin.inj e]; exact h3
        · exact h4 r e
    rw [Vec.amax, h1, this.csSup_eq]

theorem foldl_max_nan (l : List XR) (a : XR) (h : a = .nan ∨ XR.nan ∈ l) : l.foldl XR.max a = .nan := by
  induction l generalizing a with
  | nil => simpa using h
  | cons x l ih =>
    apply ih
    rcases h with rfl | h
    · left; simp
    · rcases List.mem_cons.mp h with rfl | h
      · left; simp
      · right; exact h

/-- `np.max` propagates NaN. -/
theorem amax_nan {l : List XR} (h : XR.nan ∈ l) : Vec.amax l = .ok .nan := by
  cases l with
  | nil => simp at h
  | cons x l =>
    rw [Vec.amax, foldl_max_nan]
    rcases List.mem_cons.mp h with h | h
    · exact Or.inl h.symm
    · exact Or.inr h

theorem XR.max_pinf_left {x : XR} (h : x ≠ .nan) : XR.max .pinf x = .pinf := by
  cases x <;> first | rfl | exact absurd rfl h

theorem XR.max_pinf_right {x : XR} (h : x ≠ .nan) : XR.max x .pinf = .pinf := by
  cases x <;> first | rfl | exact absurd rfl h

theorem XR.max_ne_nan {x y : XR} (hx : x ≠ .nan) (hy : y ≠ .nan) : XR.max x y ≠ .nan := by
  cases x <;> cases y <;> simp_all [XR.max]

theorem foldl_max_pinf (l : List XR) (a : XR) (ha : a ≠ .nan) (hl : XR.nan ∉ l) (h : a = .pinf ∨ XR.pinf ∈ l) :
    l.foldl XR.max a = .pinf := by
  induction l generalizing a with
  | nil => simpa using h
  | cons x l ih =>
    have hx : x ≠ .nan := fun e => hl (by simp [e])
    have hl' : XR.nan ∉ l := fun e => hl (by simp [e])
    apply ih _ (XR.max_ne_nan ha hx) hl'
    rcases h with rfl | h
    · left; exact XR.max_pinf_left hx
    · rcases List.mem_cons.mp h with rfl | h
      · left; exact XR.max_pinf_right ha
      · right; exact h

theorem amax_pinf {l : List XR} (hl : XR.nan ∉ l) (h : XR.pinf ∈ l) : Vec.amax l = .ok .pinf := by
  cases l with
  | nil => simp at h
  | cons x l =>
    rw [Vec.amax, foldl_max_pinf]
    · rintro rfl; simp at hl
    · intro e; exact hl (by simp [e])
    · rcases List.mem_cons.mp h with h | h
      · exact Or.inl h.symm
      · exact Or.inr h

theorem foldl_min_nan (l : List XR) (a : XR) (h : a = .nan ∨ XR.nan ∈ l) : l.foldl XR.min a = .nan := by
  induction l generalizing a with
  | nil => simpa using h
  | cons x l ih =>
    apply ih
    rcases h with rfl | h
    · left; simp
    · rcases List.mem_cons.mp h with rfl | h
      · left; simp
      · right; exact h

/-- `np.min` propagates NaN. -/
theorem amin_nan {l : List XR} (h : XR.nan ∈ l) : Vec.amin l = .ok .nan := by
  cases l with
  | nil => simp at h
  | cons x l =>
    rw [Vec.amin, foldl_min_nan]
    rcases List.mem_cons.mp h with h | h
    · exact Or.inl h.symm
    · exact Or.inr h

/-! ## Extrema over pairs of clusters -/

theorem exists_pair {ks : List ℤ} (hn : ks.Nodup) (hk : 1 < ks.length) : ∃ a ∈ ks, ∃ b ∈ ks, a ≠ b := by
  refine ⟨ks[0], List.getElem_mem _, ks[1], List.getElem_mem _, ?_⟩
  intro e
  have := (List.Nodup.getElem_inj_iff hn).mp e
  omega

theorem exists_other {ks : List ℤ} (hn : ks.Nodup) (hk : 1 < ks.length) (c : ℤ) : ∃ b ∈ ks, b ≠ c := by
  obtain ⟨a, ha, b, hb, hab⟩ := exists_pair hn hk
  by_cases h : a = c
  · exact ⟨b, hb, fun e => hab (h.trans e.symm)⟩
  · exact ⟨a, ha, h⟩

theorem amin_upperVals {ks : List ℤ} {S : Stream d} (hks : KeysOf ks S) (hk : 1 < ks.length) (g : ℤ → ℤ → ℝ)
    (hs : ∀ a b, g a b = g b a) :
    Vec.amin (upperVals ks fun a b => XR.fin (g a b)) = .ok (.fin (sInf (pairValues S g))) := by
  have hm : ∀ x, x ∈ upperVals ks (fun a b => XR.fin (g a b)) ↔ ∃ a ∈ ks, ∃ b ∈ ks, a ≠ b ∧ x = XR.fin (g a b) :=
    fun x => mem_upperVals hks.nodup (fun a _ b _ => by rw [hs])
  rw [amin_fin]
  · congr 3
    ext r
    simp only [Set.mem_ofPred_eq, hm, pairValues, hks.mem, XR.fin_inj]
  · obtain ⟨a, ha, b, hb, hab⟩ := exists_pair hks.nodup hk
    exact List.ne_nil_of_mem ((hm _).mpr ⟨a, ha, b, hb, hab, rfl⟩)
  · intro x hx
    obtain ⟨a, _, b, _, _, rfl⟩ := (hm x).mp hx
    exact ⟨_, rfl⟩

theorem mem_eraseIdx_keys {α : Type} {ks : List ℤ} (hn : ks.Nodup) {c : ℤ} (f : ℤ → α) (x : α) :
    x ∈ (ks.map f).eraseIdx (ks.idxOf c) ↔ ∃ b ∈ ks, b ≠ c ∧ x = f b := by
  rw [List.eraseIdx_map, ← List.erase_eq_eraseIdx_of_idxOf (a := c) rfl]
  simp only [List.mem_map, hn.mem_erase_iff]
  constructor
  · rintro ⟨b, ⟨h1, h2⟩, rfl⟩; exact ⟨b, h2, h1, rfl⟩
  · rintro ⟨b, h1, h2, rfl⟩; exact ⟨b, ⟨h2, h1⟩, rfl⟩

/-- `np.min(np.delete(row, c))` -/
theorem amin_delete {ks : List ℤ} {S : Stream d} (hks : KeysOf ks S) (hk : 1 < ks.length) {c : ℤ} (hc : c ∈ ks)
    (g : ℤ → ℝ) (f : ℤ → XR) (hf : ∀ b ∈ ks, b ≠ c → f b = .fin (g b)) :
    (Vec.delete (ks.map f) (ks.idxOf c) >>= Vec.amin) = .ok (.fin (sInf (otherValues S c g))) := by
  have hl := List.idxOf_lt_length_of_mem hc
  rw [Vec.delete, if_pos (by simpa using hl), except_bind_ok, amin_fin]
  · congr 3
    ext r
    simp only [Set.mem_ofPred_eq, mem_eraseIdx_keys hks.nodup, otherValues, ← hks.mem]
    constructor
    · rintro ⟨b, hb, hbc, e⟩; rw [hf b hb hbc] at e; exact ⟨b, hb, hbc, XR.fin.inj e⟩
    · rintro ⟨b, hb, hbc, e⟩; exact ⟨b, hb, hbc, by rw [hf b hb hbc, e]⟩
  · obtain ⟨b, hb, hbc⟩ := exists_other hks.nodup hk c
    exact List.ne_nil_of_mem ((mem_eraseIdx_keys hks.nodup _ _).mpr ⟨b, hb, hbc, rfl⟩)
  · intro x hx
    obtain ⟨b, hb, hbc, rfl⟩ := (mem_eraseIdx_keys hks.nodup _ _).mp hx
    exact ⟨_, hf b hb hbc⟩

theorem amax_keys {ks : List ℤ} {S : Stream d} (hks : KeysOf ks S) (hk : ks ≠ []) (g : ℤ → ℝ) :
    Vec.amax (ks.map fun c => XR.fin (g c)) = .ok (.fin (sSup {r | ∃ c ∈ labels S, r = g c})) := by
  rw [amax_fin]
  · congr 3
    ext r
    simp only [Set.mem_ofPred_eq, List.mem_map, XR.fin_inj, hks.mem]
    constructor
    · rintro ⟨c, hc, e⟩; exact ⟨c, hc, e.symm⟩
    · rintro ⟨c, hc, e⟩; exact ⟨c, hc, e.symm⟩
  · simpa using hk
  · intro x hx
    obtain ⟨c, _, rfl⟩ := List.mem_map.mp hx
    exact ⟨_, rfl⟩

/-! ## Facts on extrema -/

theorem pairValues_finite (S : Stream d) (g : ℤ → ℤ → ℝ) : (pairValues S g).Finite := by
  apply Set.Finite.subset (((labels S) ×ˢ (labels S)).image fun p => g p.1 p.2).finite_toSet
  rintro r ⟨a, ha, b, hb, _, rfl⟩
  simp only [Finset.coe_image, Set.mem_image, Finset.mem_coe, Finset.mem_product, Prod.exists]
  exact ⟨a, b, ⟨ha, hb⟩, rfl⟩

theorem otherValues_finite (S : Stream d) (c : ℤ) (g : ℤ → ℝ) : (otherValues S c g).Finite := by
  apply Set.Finite.subset ((labels S).image g).finite_toSet
  rintro r ⟨b, hb, _, rfl⟩
  simp only [Finset.coe_image, Set.mem_image, Finset.mem_coe]
  exact ⟨b, hb, rfl⟩

theorem pairValues_nonempty {S : Stream d} (h : 1 < numClusters S) (g : ℤ → ℤ → ℝ) : (pairValues S g).Nonempty := by
  obtain ⟨a, ha, b, hb, hab⟩ := Finset.one_lt_card.mp h
  exact ⟨_, a, ha, b, hb, hab, rfl⟩

theorem otherValues_nonempty {S : Stream d} (h : 1 < numClusters S) (c : ℤ) (g : ℤ → ℝ) :
    (otherValues S c g).Nonempty := by
  obtain ⟨b, hb, hbc⟩ := Finset.exists_mem_ne h c
  exact ⟨_, b, hb, hbc, rfl⟩

theorem sInf_pairValues_nonneg (S : Stream d) {g : ℤ → ℤ → ℝ} (h : ∀ a b, 0 ≤ g a b) : 0 ≤ sInf (pairValues S g) := by
  apply Real.sInf_nonneg
  rintro r ⟨a, _, b, _, _, rfl⟩
  exact h a b

theorem sInf_otherValues_nonneg (S : Stream d) (c : ℤ) {g : ℤ → ℝ} (h : ∀ b, 0 ≤ g b) : 0 ≤ sInf (otherValues S c g) := by
  apply Real.sInf_nonneg
  rintro r ⟨b, _, _, rfl⟩
  exact h b

theorem ratio_eq {a b : ℝ} (ha : 0 ≤ a) : XR.fin a / XR.fin b = ratio a b := by
  rw [XR.fin_div, XR.idiv, ratio]
  by_cases hb : b = 0
  · rw [if_pos hb, if_neg (by simpa using hb), XR.infOfSign]
    by_cases h : a = 0
    · simp [h]
    · rw [if_pos (lt_of_le_of_ne ha (Ne.symm h)), if_pos h]
  · rw [if_neg hb, if_pos hb]

end Verif

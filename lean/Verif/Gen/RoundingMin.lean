import Verif.Gen.RoundingQuot
import Verif.Proofs.Extrema

/-! # Error of minima and maxima over clusters and pairs of clusters -/

namespace Verif.Gen.Rounding

variable {F : Type} [Arith F] {val : F → ℝ} {fin : F → Prop} {u η Ω M γ : ℝ} {N d : ℕ} {ι : Type}

/-- `np.min` of numbers that are known up to an error. -/
theorem low_near (h : StandardFull F val fin u η Ω N γ d) {l : List ι} (hl : l ≠ []) {f : ι → F} {A : ι → ℝ} {e m : ℝ}
    (hf : ∀ i ∈ l, fin (f i) ∧ |val (f i) - A i| ≤ e) (hm : ∃ i ∈ l, A i = m) (hm' : ∀ i ∈ l, m ≤ A i) :
    fin (low (l.map f)) ∧ |val (low (l.map f)) - m| ≤ e := by
  obtain ⟨i, l, rfl⟩ := List.exists_cons_of_ne_nil hl
  obtain ⟨h1, ⟨x, hx, h2⟩, h3⟩ := h.minOf (f i) (l.map f) (by
    intro x hx
    rw [← List.map_cons] at hx
    obtain ⟨j, hj, rfl⟩ := List.mem_map.mp hx
    exact (hf j hj).1)
  rw [← List.map_cons] at hx h3
  obtain ⟨j, hj, rfl⟩ := List.mem_map.mp hx
  obtain ⟨k, hk, rfl⟩ := hm
  rw [List.map_cons, low]
  refine ⟨h1, abs_le.mpr ⟨?_, ?_⟩⟩
  · have := abs_le.mp (hf j hj).2
    linarith [hm' j hj, this.1]
  · have := abs_le.mp (hf k hk).2
    linarith [h3 _ (List.mem_map_of_mem hk), this.2]

/-- `np.max` of numbers that are known up to an error. -/
theorem high_near (h : StandardFull F val fin u η Ω N γ d) {l : List ι} (hl : l ≠ []) {f : ι → F} {A : ι → ℝ} {e m : ℝ}
    (hf : ∀ i ∈ l, fin (f i) ∧ |val (f i) - A i| ≤ e) (hm : ∃ i ∈ l, A i = m) (hm' : ∀ i ∈ l, A i ≤ m) :
    fin (high (l.map f)) ∧ |val (high (l.map f)) - m| ≤ e := by
  obtain ⟨i, l, rfl⟩ := List.exists_cons_of_ne_nil hl
  obtain ⟨h1, ⟨x, hx, h2⟩, h3⟩ := h.maxOf (f i) (l.map f) (by
    intro x hx
    rw [← List.map_cons] at hx
    obtain ⟨j, hj, rfl⟩ := List.mem_map.mp hx
    exact (hf j hj).1)
  rw [← List.map_cons] at hx h3
  obtain ⟨j, hj, rfl⟩ := List.mem_map.mp hx
  obtain ⟨k, hk, rfl⟩ := hm
  rw [List.map_cons, high]
  refine ⟨h1, abs_le.mpr ⟨?_, ?_⟩⟩
  · have := abs_le.mp (hf k hk).2
    linarith [h3 _ (List.mem_map_of_mem hk), this.1]
  · have := abs_le.mp (hf j hj).2
    linarith [hm' j hj, this.2]

theorem pairs_ne {l : List ℤ} (hl : l.Nodup) {p : ℤ × ℤ} (hp : p ∈ pairs l) : p.1 ≠ p.2 := by
  induction l with
  | nil => cases hp
  | cons a l ih =>
    rw [List.nodup_cons] at hl
    simp only [pairs, List.mem_append, List.mem_map] at hp
    rcases hp with ⟨b, hb, rfl⟩ | hp
    · exact fun e => hl.1 (by rw [show a = b from e]; exact hb)
    · exact ih hl.2 hp

theorem mem_pairs_of {l : List ℤ} {a b : ℤ} (ha : a ∈ l) (hb : b ∈ l) (hab : a ≠ b) : (a, b) ∈ pairs l ∨ (b, a) ∈ pairs l := by
  induction l with
  | nil => cases ha
  | cons c l ih =>
    simp only [pairs, List.mem_append, List.mem_map, Prod.mk.injEq]
    rcases List.mem_cons.mp ha with rfl | ha' <;> rcases List.mem_cons.mp hb with rfl | hb'
    · exact absurd rfl hab
    · exact .inl (.inl ⟨b, hb', rfl, rfl⟩)
    · exact .inr (.inl ⟨a, ha', rfl, rfl⟩)
    · rcases ih ha' hb' with h | h
      · exact .inl (.inr h)
      · exact .inr (.inr h)

variable {S : Samples F} {ks : List ℤ} {st : ℤ → Stat F} {w : List F}

/-- The minimum of a symmetric function over the pairs of clusters is attained. -/
theorem Tables.sInf_pairs {ε : ℝ} (T : Tables val fin M ε d S ks st w) {g : ℤ → ℤ → ℝ} (hg : ∀ a b, g a b = g b a) (hk : 1 < ks.length) :
    (∃ p ∈ pairs ks, g p.1 p.2 = sInf (Spec.pairValues (real val d S) g)) ∧
    ∀ p ∈ pairs ks, sInf (Spec.pairValues (real val d S) g) ≤ g p.1 p.2 := by
  have hfin := pairValues_finite (real val d S) g
  have hne : (Spec.pairValues (real val d S) g).Nonempty := pairValues_nonempty (by rwa [numClusters_real, ← T.length]) g
  constructor
  · obtain ⟨a, ha, b, hb, hab, h⟩ := hne.csInf_mem hfin
    rw [labels_real, List.mem_toFinset, ← T.mem] at ha hb
    rw [h]
    rcases mem_pairs_of ha hb hab with hp | hp
    · exact ⟨_, hp, rfl⟩
    · exact ⟨_, hp, hg _ _⟩
  · intro p hp
    refine csInf_le hfin.bddBelow ⟨p.1, ?_, p.2, ?_, pairs_ne T.nodup hp, rfl⟩ <;> rw [labels_real, List.mem_toFinset, ← T.mem]
    · exact (mem_pairs hp).1
    · exact (mem_pairs hp).2

/-- The maximum of a function over the clusters is attained. -/
theorem Tables.sSup_labels {ε : ℝ} (T : Tables val fin M ε d S ks st w) {g : ℤ → ℝ} (hk : ks ≠ []) :
    (∃ c ∈ ks, g c = sSup {r | ∃ c ∈ Spec.labels (real val d S), r = g c}) ∧
    ∀ c ∈ ks, g c ≤ sSup {r | ∃ c ∈ Spec.labels (real val d S), r = g c} := by
  have e : {r | ∃ c ∈ Spec.labels (real val d S), r = g c} = (fun c => g c) '' (Spec.labels (real val d S) : Set ℤ) := by
    ext r
    simp [eq_comm]
  have hfin : {r | ∃ c ∈ Spec.labels (real val d S), r = g c}.Finite := by
    rw [e]; exact (Finset.finite_toSet _).image _
  have hne : {r | ∃ c ∈ Spec.labels (real val d S), r = g c}.Nonempty := by
    obtain ⟨c, hc⟩ := List.exists_mem_of_ne_nil _ hk
    exact ⟨g c, c, by rwa [labels_real, List.mem_toFinset, ← T.mem], rfl⟩
  constructor
  · obtain ⟨c, hc, h⟩ := hne.csSup_mem hfin
    rw [labels_real, List.mem_toFinset, ← T.mem] at hc
    exact ⟨c, hc, h.symm⟩
  · intro c hc
    exact le_csSup hfin.bddAbove ⟨c, by rwa [labels_real, List.mem_toFinset, ← T.mem], rfl⟩

theorem sep_comm (R : Spec.Stream d) (a b : ℤ) : Spec.sep R a b = Spec.sep R b a := by
  unfold Spec.sep Spec.dist2
  exact Finset.sum_congr rfl fun i _ => by ring

/-- `E` is `A`, possibly with a zero added (the sum of a triangular matrix and its transpose). -/
def Entry (E A : F) : Prop := E = A ∨ E = A + 0 ∨ E = 0 + A

/-- `t` has the distances of the clusters in `ks`, for each pair of the list, the first argument of the distance being either of them. -/
def IsTable (I : Index) (ks : List ℤ) (st : ℤ → Stat F) (t : ℤ → ℤ → F) : Prop :=
  ∀ p ∈ pairs ks, Entry (t p.1 p.2) (between I (st p.1) (st p.2)) ∨ Entry (t p.1 p.2) (between I (st p.2) (st p.1))

theorem isTable_inc (I : Index) : IsTable I (order S) (stat S) (table I S) := by
  intro p hp
  rw [table, if_neg (pairs_ne (order_nodup S) hp)]
  split
  · exact .inl (.inl rfl)
  · exact .inr (.inl rfl)

variable (h : Setting F val fin u η Ω M γ N d)
include h

theorem Setting.Ω0 : 0 ≤ Ω := by
  have := h.moderate.Ω2
  have : 0 ≤ N * (d * M ^ 2) := by positivity
  linarith

/-- Adding zero. -/
theorem Setting.entry {E A : F} (hE : Entry E A) (fA : fin A) (hA : |val A| ≤ Ω) : fin E ∧ |val E - val A| ≤ u * |val A| := by
  obtain ⟨f0, z⟩ := h.full.zero
  rcases hE with rfl | rfl | rfl
  · refine ⟨fA, ?_⟩
    rw [sub_self, abs_zero]
    have := h.moderate.u0
    positivity
  · have := h.full.add A 0 fA f0 (by rw [z, add_zero]; exact hA)
    rwa [z, add_zero] at this
  · have := h.full.add 0 A f0 fA (by rw [z, zero_add]; exact hA)
    rwa [z, zero_add] at this

/-- Adding zero to a number that is known up to an error. -/
theorem Setting.entry_near {E A : F} {R K e : ℝ} (hE : Entry E A) (fA : fin A) (hA : |val A - R| ≤ e) (hB : |val A| ≤ K * (d * M ^ 2))
    (hK : K ≤ 6) : fin E ∧ |val E - R| ≤ e + K * (γ * N * (d * M ^ 2)) := by
  obtain ⟨e1, e2, e3, e4, -⟩ := h.eps
  have Ω2 := h.moderate.Ω2
  have hN1 : (1 : ℝ) ≤ N := by exact_mod_cast h.N1
  have hdM : 0 ≤ d * M ^ 2 := by positivity
  have hNd : d * M ^ 2 ≤ N * (d * M ^ 2) := by have := mul_le_mul_of_nonneg_right hN1 hdM; linarith
  obtain ⟨f1, i1⟩ := h.entry hE fA (by
    have := mul_le_mul_of_nonneg_right hK hdM
    linarith)
  refine ⟨f1, ?_⟩
  have h1 := abs_add_le (val E - val A) (val A - R)
  rw [sub_add_sub_cancel] at h1
  have h2 := mul_le_mul e1 hB (abs_nonneg _) e3
  linarith

variable (T : Tables val fin M (γ * N) d S ks st w)
include T

/-- The squared distance of the centroids of two clusters. -/
theorem Setting.sep {a b : ℤ} (ha : a ∈ ks) (hb : b ∈ ks) :
    fin (Arith.npSum ((List.zipWith (· - ·) (st a).v (st b).v).map Arith.sq)) ∧
    |val (Arith.npSum ((List.zipWith (· - ·) (st a).v (st b).v).map Arith.sq)) - Spec.sep (real val d S) a b| ≤
      105 * (γ * N * (d * M ^ 2)) ∧ 0 ≤ Spec.sep (real val d S) a b ∧ Spec.sep (real val d S) a b ≤ 4 * (d * M ^ 2) := by
  have hs : Sums val fin u Ω d (Arith.npSum : List F → F) := fun l hl => h.full.npSum l (hl.trans (le_max_right ..))
  rw [sep_real]
  exact h.dist hs (T.v a ha) (T.v b hb)

/-- An entry of the table of squared distances. -/
theorem Setting.sep_entry {E : F} {a b : ℤ} (ha : a ∈ ks) (hb : b ∈ ks)
    (hE : Entry E (Arith.npSum ((List.zipWith (· - ·) (st a).v (st b).v).map Arith.sq))) :
    fin E ∧ |val E - Spec.sep (real val d S) a b| ≤ 110 * (γ * N * (d * M ^ 2)) := by
  obtain ⟨f1, i1, i2, i3⟩ := h.sep T ha hb
  obtain ⟨f2, i4⟩ := h.entry_near (K := 5) hE f1 i1 (by
    have h1 := abs_le_of_err i1
    rw [abs_of_nonneg i2] at h1
    have h2 := mul_le_mul_of_nonneg_right h.eps.2.1 (show 0 ≤ d * M ^ 2 by positivity)
    linarith) (by norm_num)
  exact ⟨f2, by linarith⟩

/-- The table of squared distances. -/
theorem Setting.table {I : Index} (hI : I ≠ .GD43 ∧ I ≠ .GD53) {t : ℤ → ℤ → F} (ht : IsTable I ks st t) {p : ℤ × ℤ} (hp : p ∈ pairs ks) :
    fin (t p.1 p.2) ∧ |val (t p.1 p.2) - Spec.sep (real val d S) p.1 p.2| ≤ 110 * (γ * N * (d * M ^ 2)) := by
  have e : ∀ s t : Stat F, between I s t = Arith.npSum ((List.zipWith (· - ·) s.v t.v).map Arith.sq) := by
    intro s t
    cases I <;> simp_all [between]
  rcases ht p hp with hE | hE <;> rw [e] at hE
  · exact h.sep_entry T (mem_pairs hp).1 (mem_pairs hp).2 hE
  · rw [sep_comm]
    exact h.sep_entry T (mem_pairs hp).2 (mem_pairs hp).1 hE

/-- The least squared distance. -/
theorem Setting.least {I : Index} (hI : I ≠ .GD43 ∧ I ≠ .GD53) {t : ℤ → ℤ → F} (ht : IsTable I ks st t) (hk : 1 < ks.length) :
    fin (low ((pairs ks).map fun p => t p.1 p.2)) ∧
    |val (low ((pairs ks).map fun p => t p.1 p.2)) - sInf (Spec.pairValues (real val d S) (Spec.sep (real val d S)))| ≤
      110 * (γ * N * (d * M ^ 2)) ∧
    0 ≤ sInf (Spec.pairValues (real val d S) (Spec.sep (real val d S))) ∧
    sInf (Spec.pairValues (real val d S) (Spec.sep (real val d S))) ≤ 4 * (d * M ^ 2) := by
  obtain ⟨m1, m2⟩ := T.sInf_pairs (sep_comm _) hk
  obtain ⟨h1, h2⟩ := low_near h.full (pairs_ne_nil hk) (fun p hp => h.table T hI ht hp) m1 m2
  obtain ⟨p, hp, e⟩ := m1
  have h3 := h.sep T (mem_pairs hp).1 (mem_pairs hp).2
  rw [e] at h3
  exact ⟨h1, h2, h3.2.2.1, h3.2.2.2⟩

end Verif.Gen.Rounding

import Verif.Gen.TypedB64
import Verif.Gen.B64Cov

/-! # The Gram matrix of integers -/

namespace Verif.Gen.Typed
open B64

theorem abs_mul_le {x y M : ℤ} (hx : x ^ 2 ≤ M) (hy : y ^ 2 ≤ M) : |x * y| ≤ M := by
  rw [abs_le]
  constructor <;> nlinarith [sq_nonneg (x + y), sq_nonneg (x - y)]

theorem getD_sq {r : List ℤ} {M : ℤ} (h : normSq r ≤ M) (i : ℕ) : r.getD i 0 ^ 2 ≤ M := by
  rw [List.getD_eq_getElem?_getD]
  by_cases hi : i < r.length
  · rw [List.getElem?_eq_getElem hi]
    exact (sq_le_normSq (List.getElem_mem hi)).trans h
  · rw [List.getElem?_eq_none (not_lt.mp hi)]
    have := normSq_nonneg r
    simp only [Option.getD_none, ne_eq, OfNat.ofNat_ne_zero, not_false_eq_true, zero_pow]
    omega

/-- The products that make up one entry. -/
def products (rows : List (List ℤ)) (i j : ℕ) : List (ℤ × ℤ) := rows.map fun r => (r.getD i 0, r.getD j 0)

theorem imass_products {M : ℤ} (i j : ℕ) : ∀ rows : List (List ℤ), (∀ r ∈ rows, normSq r ≤ M) → imass (products rows i j) ≤ rows.length * M
  | [], _ => by simp [products, imass]
  | r :: rows, h => by
    have ih := imass_products i j rows fun r hr => h r (by simp [hr])
    have h1 := h r (by simp)
    have h2 := abs_mul_le (getD_sq h1 i) (getD_sq h1 j)
    simp only [products, imass, List.map_cons, List.sum_cons, List.length_cons] at ih ⊢
    push_cast
    linarith

theorem idot_products (rows : List (List ℤ)) (i j : ℕ) : idot (products rows i j) = (rows.map fun r => r.getD i 0 * r.getD j 0).sum := by
  simp [idot, products, Function.comp_def]

theorem wrap_small {z : ℤ} (h : |z| < 2 ^ 63) : wrap z = z := by
  rw [abs_lt] at h
  rw [wrap, Int.bmod_eq_of_le] <;> omega

theorem take_length {data : IArr} {idx : List ℕ} {sub : IArr} (h : data.take idx = .ok sub) : sub.rows.length = idx.length := by
  have h1 : ∀ (l : List ℕ) (rs : List (List ℤ)), mapE (fun i => data.row i) l = .ok rs → rs.length = l.length := by
    intro l
    induction l with
    | nil => intro rs h; obtain rfl := Except.ok.inj h; rfl
    | cons i l ih =>
      intro rs h
      simp only [mapE] at h
      cases hi : data.row i with
      | error e => rw [hi] at h; cases h
      | ok x =>
        rw [hi] at h
        cases hm : mapE (fun i => data.row i) l with
        | error e => rw [hm] at h; cases h
        | ok xs =>
          rw [hm] at h
          obtain rfl := Except.ok.inj h
          simp [ih xs hm]
  rw [IArr.take] at h
  cases hm : mapE (fun i => data.row i) idx with
  | error e => rw [hm] at h; cases h
  | ok rs =>
    rw [hm] at h
    obtain rfl := Except.ok.inj h
    exact h1 idx rs hm

theorem subset_length (labels : List ℤ) (ix : ℕ) : (subsetIndices labels ix).length ≤ labels.length := by
  rw [subsetIndices]
  exact (List.length_filter_le _ _).trans (by simp)

/-! ## binary64 -/

theorem IsInt.sgn {a : B64} {z : ℤ} (h : IsInt a z) (hz : z.natAbs < 2 ^ 53) : Sgn false (fromInt z) a := by
  obtain ⟨s, rfl, hs⟩ := h
  rw [fromInt_eq hz]
  refine ⟨rfl, ?_⟩
  by_cases h0 : z = 0
  · left; simp [h0]
  · right; rw [hs h0, Bool.xor_false]

theorem fromInt_zero : fromInt 0 = fin false 0 := by rw [fromInt_eq (by norm_num)]; simp

attribute [local irreducible] fromInt

theorem getD_fromInt (r : List ℤ) (i : ℕ) : (r.map fromInt).getD i (fin false 0) = fromInt (r.getD i 0) := by
  simp only [List.getD_eq_getElem?_getD, List.getElem?_map]
  cases r[i]? with
  | none => rw [Option.map_none, Option.getD_none, Option.getD_none, fromInt_zero]
  | some z => rw [Option.map_some, Option.getD_some, Option.getD_some]

theorem F64.entry {L : Lib} (hp : L.Products) {d : ℕ} (hδ : Plus (L.delta d)) {rows : List (List ℤ)} {M : ℤ} (hr : ∀ r ∈ rows, normSq r ≤ M)
    (hl : ∀ r ∈ rows, r.length = d) (h1 : 1 ≤ rows.length) (hM : rows.length * M < 2 ^ 53) (hM0 : 0 ≤ M) {i j : ℕ} (hi : i < d) (hj : j < d) (k w : F64 L) :
    k * (FromInt.ofInt (wrap (rows.map fun r => r.getD i 0 * r.getD j 0).sum) - w) + (if i = j then Arith.one else 0) * Arith.delta d =
      k * (Arith.mm (IArr.float ⟨d, rows⟩ : Arr2 (F64 L)).transpose (IArr.float ⟨d, rows⟩) i j - w) + (if i = j then Arith.one else 0) * Arith.delta d := by
  have hm := imass_products i j rows hr
  have ha := abs_idot (products rows i j)
  have hz := natAbs_lt ha (by omega)
  have hM1 : M ≤ rows.length * M := le_mul_of_one_le_left hM0 (by exact_mod_cast h1)
  rw [← idot_products, wrap_small (by omega)]
  let B : Arr2 B64 := ⟨d, rows.map fun r => r.map fromInt⟩
  let A : Arr2 B64 := ⟨rows.length, (List.range d).map fun j => rows.map fun r => fromInt (r.getD j 0)⟩
  have eA : ((IArr.float ⟨d, rows⟩ : Arr2 (F64 L)).transpose : Arr2 B64) = A := by
    show (⟨(rows.map fun r => r.map fromInt).length, (List.range d).map fun j => (rows.map fun r => r.map fromInt).map fun r => r.getD j (fin false 0)⟩ : Arr2 B64) = A
    simp only [List.length_map, List.map_map, Function.comp_def, getD_fromInt, A]
  have hA : A.rows.getD i [] = rows.map fun r => fromInt (r.getD i 0) := by
    simp only [A, List.getD_eq_getElem?_getD, List.getElem?_map, List.getElem?_range hi, Option.map_some, Option.getD_some]
  have h2 := hp A B i j (by
      intro r hr
      obtain ⟨q, hq, rfl⟩ := List.mem_map.mp hr
      rw [List.length_map, hl q hq]; exact hj) (by rw [hA]; simp [B])
  have h3 := h2.int (products rows i j) (by
      rw [hA]
      simp only [B, List.map_map, Function.comp_def, getD_fromInt, List.zip_map', products]) (by
      intro p hp
      obtain ⟨r, hr', rfl⟩ := List.mem_map.mp hp
      have e1 := getD_sq (hr r hr') i
      have e2 := getD_sq (hr r hr') j
      have e3 := natAbs_le_sq (r.getD i 0)
      have e4 := natAbs_le_sq (r.getD j 0)
      exact ⟨by simp only; omega, by simp only; omega⟩) (by omega)
  rw [← eA] at h3
  have h4 := sgn_one k ((IsInt.sgn h3 hz).sub (sgn_refl w))
  refine Sgn.absorb' ?_ h4
  by_cases e : i = j
  · rw [if_pos e]; exact (plus_mul (plus_ofNat 1) hδ).solid
  · rw [if_neg e]; exact (plus_mul plus_zero hδ).solid

/-! ## Exact arithmetic -/

theorem XR.getD_fin (r : List ℤ) (i : ℕ) : (r.map fun z : ℤ => XR.fin z).getD i 0 = XR.fin (r.getD i 0 : ℤ) := by
  have e : (0 : XR) = XR.fin ((0 : ℤ) : ℝ) := by rw [Int.cast_zero]; rfl
  rw [e]
  simp only [List.getD_eq_getElem?_getD, List.getElem?_map]
  cases r[i]? <;> simp

theorem XR.sum_products (rows : List (List ℤ)) (i j : ℕ) :
    (List.zipWith (· * ·) (rows.map fun r => XR.fin (r.getD i 0 : ℤ)) (rows.map fun r => XR.fin (r.getD j 0 : ℤ))).sum =
      XR.fin ((rows.map fun r => r.getD i 0 * r.getD j 0).sum : ℤ) := by
  induction rows with
  | nil => simp; rfl
  | cons r rows ih =>
    simp only [List.map_cons, List.zipWith_cons_cons, List.sum_cons] at ih ⊢
    rw [ih]
    push_cast
    rw [XR.fin_mul, XR.fin_add]

theorem XR.entry {d : ℕ} {rows : List (List ℤ)} {M : ℤ} (hr : ∀ r ∈ rows, normSq r ≤ M) (hM : rows.length * M < 2 ^ 63) {i j : ℕ} (hi : i < d) :
    (Arith.mm (IArr.float ⟨d, rows⟩ : Arr2 XR).transpose (IArr.float ⟨d, rows⟩) i j : XR) =
      FromInt.ofInt (wrap (rows.map fun r => r.getD i 0 * r.getD j 0).sum) := by
  have hm := imass_products i j rows hr
  have ha := abs_idot (products rows i j)
  rw [← idot_products, wrap_small (by omega), idot_products]
  have hA : ((IArr.float ⟨d, rows⟩ : Arr2 XR).transpose.rows.getD i []) = rows.map fun r => XR.fin (r.getD i 0 : ℤ) := by
    rw [List.getD_eq_getElem?_getD]
    show (((List.range d).map fun j => (rows.map fun r => r.map fun z : ℤ => XR.fin z).map fun r => r.getD j 0)[i]?).getD [] = _
    simp only [List.getElem?_map, List.getElem?_range hi, Option.map_some, Option.getD_some, List.map_map, Function.comp_def, XR.getD_fin]
  have hB : ((IArr.float ⟨d, rows⟩ : Arr2 XR).rows.map fun s => s.getD j 0) = rows.map fun r => XR.fin (r.getD j 0 : ℤ) := by
    show ((rows.map fun r => r.map fun z : ℤ => XR.fin z).map fun r => r.getD j 0) = _
    simp only [List.map_map, Function.comp_def, XR.getD_fin]
  show (List.zipWith (· * ·) ((IArr.float ⟨d, rows⟩ : Arr2 XR).transpose.rows.getD i []) ((IArr.float ⟨d, rows⟩ : Arr2 XR).rows.map fun s => s.getD j 0)).sum = _
  rw [hA, hB, XR.sum_products]
  rfl

/-! ## One call in batch mode -/

variable {F : Type} [Arith F] [FromInt F]

/-- The value agrees when the entries of all covariances do. -/
theorem batch_entries {data : IArr} {labels : List ℤ} {M : ℤ} (hl : ∀ r ∈ data.rows, r.length = data.cols) (hr : ∀ r ∈ data.rows, normSq r ≤ M)
    (h : ∀ rows : List (List ℤ), 1 < rows.length → rows.length ≤ labels.length → (∀ r ∈ rows, normSq r ≤ M) → (∀ r ∈ rows, r.length = data.cols) →
      ∀ i < data.cols, ∀ j < data.cols, ∀ k w : F,
      k * (FromInt.ofInt (wrap (rows.map fun r => r.getD i 0 * r.getD j 0).sum) - w) + (if i = j then Arith.one else 0) * Arith.delta data.cols =
        k * (Arith.mm (IArr.float ⟨data.cols, rows⟩ : Arr2 F).transpose (IArr.float ⟨data.cols, rows⟩) i j - w) +
          (if i = j then Arith.one else 0) * Arith.delta data.cols) (o : Obj F) (ho : o.core.isSetup = false) :
    Verif.getCvi RCIPmod (.d2 data.float) (.arr labels) o = (batch data labels o.core).mapState fun c => { o with core := c } := by
  refine batch_eq (fun ix _ sub dt hs h1 hdt => ?_) o ho
  obtain ⟨hc, hm⟩ := take_rows hs
  have hn := take_length hs
  have hle := subset_length labels ix
  have e : dt = ridge sub.cols := by
    rw [RCIP.deltaTerm] at hdt
    split at hdt
    · cases hdt
    · rw [hc]; exact (Except.ok.inj hdt).symm
  subst e
  refine batchSigma_eq h1 fun i hi j hj w => ?_
  obtain ⟨c, rows⟩ := sub
  dsimp only at hc hm h1 hn hi hj ⊢
  subst hc
  exact h rows h1 (by omega) (fun r hr' => hr r (hm r hr')) (fun r hr' => hl r (hm r hr')) i hi j hj _ w

end Verif.Gen.Typed

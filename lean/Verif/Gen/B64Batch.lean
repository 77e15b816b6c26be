import Verif.Gen.B64Full
import Verif.Gen.RoundingBatch

/-! # binary64 satisfies the standard model for batches -/

namespace Verif.Gen
open B64

/-- `np.mean` along a column and `np.sum` of an array with `d` columns add in some order. -/
def Lib.BatchSums (L : Lib) (d : ℕ) : Prop :=
  (∀ l : List B64, SumOf l (L.colSum l)) ∧
    ∀ rows : List (List B64), (∀ r ∈ rows, r.length = d) → SumOf rows.flatten (L.sum2 rows)

theorem F64.standardBatch {L : Lib} {d : ℕ} (hL : L.BatchSums d) {N : ℕ} (hN : N ≤ 2 ^ 50) (hd : d * N ≤ 2 ^ 50) :
    StandardBatch (F64 L) val Fin u Ω N d where
  one := by
    have h := ofNat_val (n := 1) (by norm_num)
    refine ⟨h.1.isFin, h.2.trans ?_⟩
    norm_num
  colMean := ⟨L.colSum, fun l hl hf hΩ => (hL.1 l).near (hl.trans hN) hf hΩ, fun _ => rfl⟩
  sum2 rows hr hd' hf hΩ := by
    have hl : rows.flatten.length = rows.length * d := by
      rw [List.length_flatten, List.map_congr_left hd', List.map_const', List.sum_replicate, smul_eq_mul]
    refine (hL.2 rows hd').near (hl.trans_le ?_) hf hΩ
    exact (Nat.mul_le_mul_right d hr).trans ((Nat.mul_comm N d).trans_le hd)

theorem Lib.plain_batchSums (d : ℕ) : Lib.plain.BatchSums d := ⟨Lib.plain_sums, fun rows _ => Lib.plain_sums rows.flatten⟩

end Verif.Gen

import Verif.Gen.Spec

/-!
# What a batch computes in any arithmetic

`P i` are the rows of the data with label `i`, for `i < k`, where `k` is the number of different labels; `rows` are all rows.
-/

namespace Verif.Gen

variable {F : Type} [Arith F]

/-- `np.mean(rows, axis=0)` -/
def colMeans (d : ℕ) (l : List (List F)) : List F := (List.range d).map fun j => Arith.colMean (l.map fun x => x.getD j 0)

/-- The squared differences of a row and a point -/
def sqDiff (x v : List F) : List F := (List.zipWith (· - ·) x (v.map (· * Arith.one))).map Arith.sq

/-- Size, centroid and compactness of a cluster with the rows `l`. -/
def Stat.batch (d : ℕ) (l : List (List F)) : Stat F :=
  ⟨l.length, colMeans d l, Arith.sum2 (l.map fun x => sqDiff x (colMeans d l)), []⟩

namespace Batch
variable (d k : ℕ) (P : ℕ → List (List F)) (rows : List (List F))

/-- `U + U.T` for an upper triangular `U` -/
def both (f : ℕ → ℕ → F) (i j : ℕ) : F := (if i < j then f i j else 0) + (if j < i then f j i else 0)

/-- The table of distances.  XB stores only the part above the diagonal. -/
def table (I : Index) (i j : ℕ) : F :=
  let f := fun i j => between I (Stat.batch d (P i)) (Stat.batch d (P j))
  if I = .XB then (if i < j then f i j else 0) else both f i j

/-- The distances of all pairs of clusters. -/
def distances (I : Index) : List F := (pairs (List.range k)).map fun p => table d P I p.1 p.2

/-- `n` times the squared distance to the mean of all rows. -/
def separation (i : ℕ) : F :=
  Arith.ofNat (P i).length * Arith.npSum ((List.zipWith (· - ·) (colMeans d (P i)) (colMeans d rows)).map Arith.sq)

/-- DB's spread of a cluster. -/
def spread (i : ℕ) : F := (Stat.batch d (P i)).cp / Arith.ofNat (P i).length

/-- DB's quotient for a pair, `i < j` -/
def quotient (i j : ℕ) : F := (spread d P i + spread d P j) / table d P .DB j i

/-- PS: the mean of the centroids. -/
def vBar : List F := colMeans d ((List.range k).map fun i => colMeans d (P i))

/-- PS: the mean squared distance of the centroids to their mean. -/
def betaT : F :=
  Arith.pySum ((List.range k).map fun i => Arith.dot (List.zipWith (· - ·) (colMeans d (P i)) (vBar d k P))
    (List.zipWith (· - ·) (colMeans d (P i)) (vBar d k P))) / Arith.ofNat k

/-- PS: the largest cluster. -/
def largest : ℕ := ((List.range k).map fun i => (P i).length).foldl max 0

/-- PS: the contribution of a cluster. -/
def psTerm (i : ℕ) : F :=
  Arith.intDiv (P i).length (largest k P) -
    Arith.exp (-low (((List.range k).filter (· ≠ i)).map fun j => table d P .PS i j) / betaT d k P)

/-- cSIL: the mean squared distance of the rows of cluster `j` to the centroid of cluster `i`. -/
def cell (j i : ℕ) : F :=
  Arith.pySum ((P j).map fun x => Arith.rowSum (sqDiff x (colMeans d (P i)))) / Arith.ofNat (P j).length

/-- cSIL: the silhouette coefficient of a cluster. -/
def silhouette (i : ℕ) : F :=
  let a := cell d P i i
  let b := low (((List.range k).filter (· ≠ i)).map fun j => cell d P j i)
  (b - a) / Arith.max2 a b

/-- The value of an index other than rCIP. -/
def value (I : Index) : F :=
  let ks := List.range k
  let cp := fun i => (Stat.batch d (P i)).cp
  match I with
  | .CH => Arith.pySum (ks.map (separation d P rows)) / Arith.pySum (ks.map cp) * Arith.chFactor rows.length k
  | .WB => Arith.pySum (ks.map cp) / Arith.pySum (ks.map (separation d P rows)) * Arith.ofNat k
  | .XB => Arith.pySum (ks.map cp) / (Arith.ofNat rows.length * low (distances d k P I))
  | .DB => Arith.npSum (ks.map fun j => high (ks.map fun i => both (quotient d P) j i)) / Arith.ofNat k
  | .GD43 => low (distances d k P I) / (Arith.two * high (ks.map (spread d P)))
  | .GD53 => low (distances d k P I) / (Arith.two * high (ks.map (spread d P)))
  | .PS => Arith.npSum (ks.map (psTerm d k P))
  | .cSIL => if ks.any fun j => ks.any fun i => Arith.truthy (cell d P j i) then
      Arith.npSum (ks.map (silhouette d k P)) / Arith.ofNat k else 0
  | .rCIP => 0

/-- rCIP's statistics of a cluster with the rows `l`. -/
def gauss (l : List (List F)) : Gauss F :=
  let v := colMeans d l
  let scatter : Arr2 F := ⟨d, (List.range d).map fun i => (List.range d).map fun j =>
    Arith.mm ⟨l.length, (List.range d).map fun j => l.map fun x => x.getD j 0⟩ ⟨d, l⟩ i j⟩
  let outer : Arr2 F := ⟨d, (v.map fun p => v.map fun q => p * q).map (List.map (Arith.ofNat l.length * ·))⟩
  let A : Arr2 F := ⟨d, (zip2 (· - ·) scatter outer).rows.map (List.map (Arith.invPred l.length * ·))⟩
  ⟨l.length, v, if l.length > 1 then zip2 (· + ·) A (ridge d) else ridge d⟩

/-- What an index returns. -/
def Returns (I : Index) (r : F) : Prop :=
  match I with
  | .rCIP => ∃ g, (∀ i j, i < j → j < k → Overlap d (gauss d (P i)) (gauss d (P j)) (g i j)) ∧
      r = Arith.npSum ((pairs (List.range k)).map fun p => both g p.1 p.2)
  | I => r = value d k P rows I

end Batch
end Verif.Gen

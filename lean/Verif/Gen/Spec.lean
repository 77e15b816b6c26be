import Verif.Gen.Arith
import Verif.Model.All

/-!
# What the indices compute, in any arithmetic

Written without reference to the model's functions: lists, the operations of `Arith`, and nothing else.
`Samples F` is a labelled stream of samples.  The statistics of a cluster are defined from the samples *of that cluster alone*,
the table of distances from the statistics alone, and the value of an index from statistics and table.
-/

namespace Verif.Gen
variable {F : Type} [Arith F]

/-- A stream: samples with their labels, in order of arrival. -/
abbrev Samples (F : Type) := List (List F × ℤ)

/-- Every sample has `d` features. -/
def Samples.Dim (d : ℕ) (S : Samples F) : Prop := ∀ p ∈ S, p.1.length = d

/-- The samples of one cluster, in order of arrival. -/
def own (S : Samples F) (c : ℤ) : List (List F) := (S.filter fun p => p.2 = c).map Prod.fst

/-- The labels in order of first occurrence. -/
def order (S : Samples F) : List ℤ := (S.map Prod.snd).foldl (fun ks c => if c ∈ ks then ks else ks ++ [c]) []

/-- The statistics of one cluster. -/
structure Stat (F : Type) where
  n : ℕ
  v : List F
  cp : F
  g : List F

/-- A running mean: `1 - 1/n` of the old mean and `1/n` of the `n`-th sample. -/
def blend (n : ℕ) (old x : List F) : List F :=
  List.zipWith (· + ·) (old.map (Arith.oneMinusInv n * ·)) (x.map (Arith.invNat n * ·))

/-- The statistics of a cluster of one sample. -/
def Stat.one (x : List F) : Stat F := ⟨1, x, 0, x.map fun _ => 0⟩

/-- The statistics after one more sample. -/
def Stat.more (t : Stat F) (x : List F) : Stat F :=
  let v := blend (t.n + 1) t.v x
  let dv := List.zipWith (· - ·) t.v v
  let dx := List.zipWith (· - ·) x v
  ⟨t.n + 1, v, t.cp + Arith.dot dx dx + Arith.ofNat t.n * Arith.dot dv dv + Arith.two * Arith.dot dv t.g,
    List.zipWith (· + ·) (List.zipWith (· + ·) t.g dx) (dv.map (Arith.ofNat t.n * ·))⟩

/-- The statistics of a list of samples. -/
def Stat.of : List (List F) → Stat F
  | [] => ⟨0, [], 0, []⟩
  | x :: l => l.foldl Stat.more (Stat.one x)

/-- The statistics of cluster `c`. -/
def stat (S : Samples F) (c : ℤ) : Stat F := Stat.of (own S c)

/-- The running mean of a list of samples, numbered from `n + 1`. -/
def centre : ℕ → List F → List (List F) → List F
  | _, v, [] => v
  | n, v, x :: l => centre (n + 1) (blend (n + 1) v x) l

/-- The running mean of all samples. -/
def mu : Samples F → List F
  | [] => []
  | p :: S => centre 1 p.1 (S.map Prod.fst)

/-- Is the last sample with label `a` or `b` labelled `a`? -/
def newer (S : Samples F) (a b : ℤ) : Bool :=
  decide ((S.reverse.find? fun p => decide (p.2 = a ∨ p.2 = b)).map Prod.snd = some a)

/-- The distance of two clusters. -/
def between : Index → Stat F → Stat F → F
  | .GD43, s, t => Arith.sqrt (Arith.npSum ((List.zipWith (· - ·) s.v t.v).map Arith.sq))
  | .GD53, s, t => (s.cp + t.cp) / Arith.ofNat (s.n + t.n)
  | _, s, t => Arith.npSum ((List.zipWith (· - ·) s.v t.v).map Arith.sq)

/-- The table of distances, from the current statistics; the cluster that was touched last comes first. -/
def table (I : Index) (S : Samples F) (a b : ℤ) : F :=
  if a = b then 0
  else if newer S a b then between I (stat S a) (stat S b)
  else between I (stat S b) (stat S a)

/-- All pairs of a list, the earlier one first. -/
def pairs {α : Type} : List α → List (α × α)
  | [] => []
  | a :: l => l.map (fun b => (a, b)) ++ pairs l

/-- `np.min` and `np.max` of a non-empty list -/
def low : List F → F
  | [] => 0
  | a :: l => Arith.minOf a l
def high : List F → F
  | [] => 0
  | a :: l => Arith.maxOf a l

/-- The distances of all pairs of clusters. -/
def distances (I : Index) (S : Samples F) : List F := (pairs (order S)).map fun p => table I S p.1 p.2

/-- `n` times the squared distance to the mean of all samples. -/
def separation (S : Samples F) (c : ℤ) : F :=
  Arith.ofNat (stat S c).n * Arith.pySum ((List.zipWith (· - ·) (stat S c).v (mu S)).map Arith.sq)

/-- DB's spread of a cluster. -/
def spread (t : Stat F) : F := if t.n = 1 then 0 else t.cp / Arith.ofNat t.n

/-- DB's quotient for the pair `a`, `b`, `a` the older label. -/
def quotient (S : Samples F) (a b : ℤ) : F := (spread (stat S a) + spread (stat S b)) / table .DB S b a

/-- DB's symmetric matrix of quotients. -/
def quotients (S : Samples F) (a b : ℤ) : F :=
  (if (order S).idxOf b < (order S).idxOf a then quotient S b a else 0) +
    (if (order S).idxOf a < (order S).idxOf b then quotient S a b else 0)

/-- PS: the mean of the centroids. -/
def vBar (S : Samples F) (d : ℕ) : List F :=
  (List.range d).map fun j => Arith.colMean ((order S).map fun c => (stat S c).v.getD j 0)

/-- PS: the mean squared distance of the centroids to their mean. -/
def betaT (S : Samples F) (d : ℕ) : F :=
  Arith.pySum ((order S).map fun c =>
    Arith.dot (List.zipWith (· - ·) (stat S c).v (vBar S d)) (List.zipWith (· - ·) (stat S c).v (vBar S d))) /
    Arith.ofNat (order S).length

/-- PS: the contribution of a cluster. -/
def psTerm (S : Samples F) (d : ℕ) (c : ℤ) : F :=
  Arith.intDiv (stat S c).n (((order S).map fun c => (stat S c).n).foldl max 0 : ℕ) -
    Arith.exp (-low (((order S).filter (· ≠ c)).map fun b => table .PS S c b) / betaT S d)

/-! cSIL keeps other statistics: sums of squares and sums of samples. -/

/-- cSIL's statistics of a cluster of one sample. -/
def Sil.one (x : List F) : Stat F := ⟨1, x, Arith.dot x x, x⟩

/-- cSIL's statistics after one more sample. -/
def Sil.more (t : Stat F) (x : List F) : Stat F :=
  ⟨t.n + 1, blend (t.n + 1) t.v x, t.cp + Arith.dot x x, List.zipWith (· + ·) t.g x⟩

/-- cSIL's statistics of a list of samples. -/
def Sil.of : List (List F) → Stat F
  | [] => ⟨0, [], 0, []⟩
  | x :: l => l.foldl Sil.more (Sil.one x)

/-- cSIL's statistics of cluster `c`. -/
def sil (S : Samples F) (c : ℤ) : Stat F := Sil.of (own S c)

/-- Column entry: the mean squared distance of a cluster to a point `w`, from the sums. -/
def near (t : Stat F) (w : List F) : F :=
  (t.cp + Arith.ofNat t.n * Arith.dot w w - Arith.two * Arith.dot t.g w) / Arith.ofNat t.n

/-- Row entry of a cluster with statistics `t` that gets the sample `x`; `g` is a sum of samples. -/
def far (t : Stat F) (x g w : List F) : F :=
  let dx := List.zipWith (· - ·) x w
  (t.cp + Arith.dot dx dx + Arith.ofNat t.n * Arith.dot w w - Arith.two * Arith.dot g w) / Arith.ofNat (t.n + 1)

/-- cSIL's matrix; the newest sample comes first.  Each sample rewrites the row and the column of its cluster. -/
def cellRev : Samples F → ℤ → ℤ → F
  | [], _, _ => 0
  | (x, c) :: R, a, b =>
    let S := R.reverse
    let t := sil S c
    if a ≠ c ∧ b ≠ c then cellRev R a b
    else if b ≠ c then
      if c ∈ order S then far t x (List.zipWith (· + ·) t.g x) (sil S b).v
      else Arith.dot x x + Arith.dot (sil S b).v (sil S b).v - Arith.dot x (sil S b).v
    else if a ≠ c then near (sil S a) (sil (S ++ [(x, c)]) c).v
    else if c ∈ order S then far t x t.g (sil (S ++ [(x, c)]) c).v
    else 0

/-- cSIL's matrix after the stream `S`. -/
def cell (S : Samples F) (a b : ℤ) : F := cellRev S.reverse a b

/-- The silhouette coefficient of a cluster. -/
def silhouette (S : Samples F) (c : ℤ) : F :=
  let a := cell S c c
  let b := low (((order S).filter (· ≠ c)).map fun b => cell S b c)
  (b - a) / Arith.max2 a b

/-- The value of an index other than rCIP after the stream `S` of samples with `d` features. -/
def value (d : ℕ) (I : Index) (S : Samples F) : F :=
  let ks := order S
  if ks.length ≤ 1 then 0
  else match I with
    | .CH => Arith.pySum (ks.map (separation S)) / Arith.pySum (ks.map fun c => (stat S c).cp) *
        Arith.chFactor S.length ks.length
    | .WB => Arith.pySum (ks.map fun c => (stat S c).cp) / Arith.pySum (ks.map (separation S)) * Arith.ofNat ks.length
    | .XB => Arith.pySum (ks.map fun c => (stat S c).cp) / (Arith.ofNat S.length * low (distances I S))
    | .DB => Arith.npSum (ks.map fun b => high (ks.map fun a => quotients S a b)) / Arith.ofNat ks.length
    | .GD43 => low (distances I S) / (Arith.two * high (ks.map fun c => (stat S c).cp / Arith.ofNat (stat S c).n))
    | .GD53 => low (distances I S) / (Arith.two * high (ks.map fun c => (stat S c).cp / Arith.ofNat (stat S c).n))
    | .PS => Arith.npSum (ks.map (psTerm S d))
    | .cSIL => if ks.any fun a => ks.any fun b => Arith.truthy (cell S a b) then
        Arith.npSum (ks.map (silhouette S)) / Arith.ofNat ks.length else 0
    | .rCIP => 0

/-! rCIP keeps centroids and covariances.  `np.linalg` may raise. -/

/-- rCIP's statistics of a cluster. -/
structure Gauss (F : Type) where
  n : ℕ
  v : List F
  sigma : Arr2 F

/-- Entry by entry -/
def zip2 (f : F → F → F) (A B : Arr2 F) : Arr2 F := ⟨A.cols, List.zipWith (List.zipWith f) A.rows B.rows⟩

/-- The multiple of the unit matrix that is added to every covariance. -/
def ridge (d : ℕ) : Arr2 F :=
  ⟨d, (List.range d).map fun i => (List.range d).map fun j => (if i = j then Arith.one else 0) * Arith.delta d⟩

/-- rCIP's statistics of a cluster of one sample. -/
def Gauss.one (d : ℕ) (x : List F) : Gauss F := ⟨1, x, ridge d⟩

/-- rCIP's statistics after one more sample. -/
def Gauss.more (d : ℕ) (t : Gauss F) (x : List F) : Gauss F :=
  let dx := List.zipWith (· - ·) x t.v
  let A : Arr2 F := ⟨d, (zip2 (· - ·) t.sigma (ridge d)).rows.map (List.map (Arith.intDiv ((t.n : ℤ) - 1) t.n * ·))⟩
  let B : Arr2 F := ⟨d, (dx.map fun p => dx.map fun q => p * q).map (List.map (Arith.invNat (t.n + 1) * ·))⟩
  ⟨t.n + 1, blend (t.n + 1) t.v x, zip2 (· + ·) (zip2 (· + ·) A B) (ridge d)⟩

/-- rCIP's statistics of a list of samples. -/
def Gauss.of (d : ℕ) : List (List F) → Gauss F
  | [] => ⟨0, [], ⟨0, []⟩⟩
  | x :: l => l.foldl (Gauss.more d) (Gauss.one d x)

/-- rCIP's statistics of cluster `c`. -/
def gauss (d : ℕ) (S : Samples F) (c : ℤ) : Gauss F := Gauss.of d (own S c)

/-- The overlap of two clusters, if the libraries do not raise. -/
def Overlap (d : ℕ) (s t : Gauss F) (r : F) : Prop :=
  ∃ k D B, Arith.normConst d = .ok k ∧ Arith.det (zip2 (· + ·) s.sigma t.sigma) = .ok D ∧
    Arith.inv (zip2 (· + ·) s.sigma t.sigma) = .ok B ∧
    let dv := List.zipWith (· - ·) s.v t.v
    r = k * (Arith.one / Arith.sqrt D) *
      Arith.exp (Arith.dot ((List.range d).map fun j => Arith.vm (dv.map (Arith.negHalf * ·)) B j) dv)

/-- rCIP's table; the cluster that was touched last comes first. -/
def Overlaps (d : ℕ) (S : Samples F) (g : ℤ → ℤ → F) : Prop :=
  ∀ a ∈ order S, g a a = 0 ∧ ∀ b ∈ order S, a ≠ b →
    if newer S a b then Overlap d (gauss d S a) (gauss d S b) (g a b) else Overlap d (gauss d S b) (gauss d S a) (g a b)

/-- What an index returns after the stream `S` of samples with `d` features. -/
def Returns (d : ℕ) (I : Index) (S : Samples F) (r : F) : Prop :=
  match I with
  | .rCIP => ∃ g, Overlaps d S g ∧
      r = if (order S).length ≤ 1 then 0 else Arith.npSum ((pairs (order S)).map fun p => g p.1 p.2)
  | I => r = value d I S

end Verif.Gen

import Verif.Api
import Verif.Compat.V0

/-! # What the older interface is meant to compute

Stated in terms of the labelled data set alone (`Verif.Spec`). -/

namespace Verif.V0
open Spec

variable {d : ℕ}

/-- Cluster numbers are introduced in the order 0, 1, 2, ... -/
def InOrder (S : Stream d) : Prop :=
  ∀ P p Q, S = P ++ p :: Q → 0 ≤ p.2 ∧ p.2 ≤ (numClusters P : ℤ)

/-- All squared distances of two centroids at some time during the stream. -/
def histSep (S : Stream d) : Set ℝ := {r | ∃ P, P <+: S ∧ r ∈ pairValues P (sep P)}

/-- The Xie–Beni index with the least separation *of the whole history* in place of the current one. -/
noncomputable def histXB (S : Stream d) : XR :=
  if numClusters S ≤ 1 then .fin 0 else ratio (WGSS S) (S.length * sInf (histSep S))

end Verif.V0

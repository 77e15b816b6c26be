import Verif.Gen.Uniform
import Verif.Proofs.WrongLength

/-!
# The number of values an object holds
-/

namespace Verif

variable {F : Type}

/-- The number of entries of an array. -/
def Arr2.size (a : Arr2 F) : ℕ := (a.rows.map List.length).sum

/-- The number of array and list entries among the attributes.  The attributes that are single numbers are not counted. -/
def Core.size (s : Core F) : ℕ :=
  s.n.items.length + s.v.size + (s.CP.elim 0 fun l => l.items.length) + (s.G.elim 0 Arr2.size) + s.mu.length + s.SEP.length +
    s.D.size + s.R.size + s.Sv.items.length + s.Sm.size + s.silCoefs.length + s.vBar.length + s.PSi.length +
    (s.sigma.map Arr2.size).sum + s.deltaTerm.size

/-- The same with the label map, of which an entry is a label and its number. -/
def Obj.size (o : Obj F) : ℕ := 2 * o.labelMap.length + o.core.size

theorem size_rect {a : Arr2 F} {r c : ℕ} (h : a.rows.length = r) (hc : ∀ x ∈ a.rows, x.length = c) : a.size = r * c := by
  subst h
  rw [Arr2.size]
  generalize a.rows = l at hc
  induction l with
  | nil => simp
  | cons x l ih =>
    rw [List.map_cons, List.sum_cons, ih fun y hy => hc y (List.mem_cons_of_mem _ hy), hc x List.mem_cons_self, List.length_cons]
    ring

theorem size_sqMat (l : List ℤ) (f : ℤ → ℤ → F) : (sqMat l f).size = l.length * l.length :=
  size_rect (by simp [sqMat]) fun x hx => by
    obtain ⟨a, -, rfl⟩ := List.mem_map.mp hx
    simp

/-- A method that returns does so after each of its statements. -/
theorem bind_inv {σ α β : Type} {x : Py σ α} {f : α → Py σ β} {s s' : σ} {b : β} (h : (x >>= f) s = .ok b s') :
    ∃ a t, x s = .ok a t ∧ f a t = .ok b s' := by
  rw [Py.bind_apply] at h
  cases hx : x s with
  | ok a t => rw [hx] at h; exact ⟨a, t, rfl, h⟩
  | err e t => rw [hx] at h; cases h

theorem mapE_length {α β : Type} {f : α → Except PyErr β} {l : List α} {r : List β} (h : mapE f l = .ok r) : r.length = l.length := by
  induction l generalizing r with
  | nil => cases h; rfl
  | cons a l ih =>
    obtain ⟨b, hb, h⟩ := except_bind_inv h
    obtain ⟨bs, hbs, h⟩ := except_bind_inv h
    cases h
    simp [ih hbs]

namespace Gen
open Py
variable [Arith F] {d : ℕ}

/-- The size of the attributes a class has no use for. -/
def idle (I : Index) (s : Core F) : ℕ :=
  match I with
  | .CH | .WB => s.R.size + s.silCoefs.length + s.vBar.length + s.PSi.length + s.D.size + s.Sv.items.length + s.Sm.size + (s.sigma.map Arr2.size).sum + s.deltaTerm.size
  | .XB => s.R.size + s.silCoefs.length + s.vBar.length + s.PSi.length + s.Sv.items.length + s.Sm.size + (s.sigma.map Arr2.size).sum + s.deltaTerm.size
  | .DB => s.silCoefs.length + s.vBar.length + s.PSi.length + s.SEP.length + s.Sm.size + (s.sigma.map Arr2.size).sum + s.deltaTerm.size
  | .GD43 | .GD53 => s.R.size + s.silCoefs.length + s.vBar.length + s.PSi.length + s.SEP.length + s.Sv.items.length + s.Sm.size + (s.sigma.map Arr2.size).sum + s.deltaTerm.size
  | .PS => s.R.size + s.silCoefs.length + (s.CP.elim 0 fun l => l.items.length) + (s.G.elim 0 Arr2.size) + s.mu.length + s.SEP.length + s.Sv.items.length +
      s.Sm.size + (s.sigma.map Arr2.size).sum + s.deltaTerm.size
  | .rCIP => s.R.size + s.silCoefs.length + s.vBar.length + s.PSi.length + (s.CP.elim 0 fun l => l.items.length) + (s.G.elim 0 Arr2.size) + s.mu.length + s.SEP.length + s.Sv.items.length +
      s.Sm.size
  | .cSIL => s.R.size + s.vBar.length + s.PSi.length + s.mu.length + s.SEP.length + s.D.size + s.Sv.items.length + (s.sigma.map Arr2.size).sum + s.deltaTerm.size

/-- Split a method into its statements; no statement assigns an attribute that `P` mentions. -/
macro "frame" : tactic => `(tactic| (
  try unfold incClusters
  try unfold appendN
  try unfold appendCP
  try unfold vstackV
  try unfold vstackG
  try unfold setN
  try unfold setV
  try unfold setCP
  try unfold setG
  try unfold setD
  try unfold Verif.DB.appendS
  try unfold Verif.DB.setS
  try unfold Verif.RCIP.dstackSigma
  try unfold Verif.RCIP.setSigma
  try unfold Verif.CSIL.setS
  try unfold setupOrMu
  try unfold setupIfFirst
  try unfold Base.setup
  repeat' first
    | with_reducible exact keeps_get
    | with_reducible exact keeps_lift _
    | with_reducible exact keeps_raise _
    | with_reducible exact keeps_pure _
    | with_reducible apply keeps_bind
    | with_reducible apply keeps_ite
    | with_reducible apply keeps_forEach
    | exact keeps_modify fun _ h => h
    | exact keeps_modify fun _ h => by simp_all [idle, Arr2.size, Arr2.zeros]
    | intro _))

theorem idle_incBody (I : Index) (x : Vec F) (i : ℕ) : Keeps (fun s => idle I s = 0) ((mod F I).incBody x i) := by
  cases I
  · show Keeps _ (CH.incBody x i); unfold CH.incBody CH.incNew CH.incOld CH.finish CH.setup; frame
  · show Keeps _ (WB.incBody x i); unfold WB.incBody WB.incNew WB.incOld WB.finish WB.setup; frame
  · show Keeps _ (XB.incBody x i); unfold XB.incBody XB.incNew XB.incOld XB.setup; frame
  · show Keeps _ (DB.incBody x i); unfold DB.incBody DB.incNew DB.incOld DB.setup; frame
  · show Keeps _ (GD43.incBody x i); unfold GD43.incBody GD43.incNew GD43.incOld GD43.setup; frame
  · show Keeps _ (GD53.incBody x i); unfold GD53.incBody GD53.incNew GD53.incOld GD53.setup; frame
  · show Keeps _ (PS.incBody x i); unfold PS.incBody PS.incNew PS.incOld PS.setup; frame
  · show Keeps _ (RCIP.incBody x i); unfold RCIP.incBody RCIP.incNew RCIP.incOld RCIP.setup; frame
  · show Keeps _ (CSIL.incBody x i); unfold CSIL.incBody CSIL.incNew CSIL.incOld CSIL.setup; frame

theorem idle_evaluate (I : Index) : Keeps (fun s : Core F => idle I s = 0) (mod F I).evaluate := by
  cases I
  · show Keeps _ CH.evaluate; unfold CH.evaluate; frame
  · show Keeps _ WB.evaluate; unfold WB.evaluate; frame
  · show Keeps _ XB.evaluate; unfold XB.evaluate; frame
  · show Keeps _ DB.evaluate; unfold DB.evaluate; frame
  · show Keeps _ GD43.evaluate; unfold GD43.evaluate; frame
  · show Keeps _ GD53.evaluate; unfold GD53.evaluate; frame
  · show Keeps _ PS.evaluate; unfold PS.evaluate; frame
  · show Keeps _ RCIP.evaluate; unfold RCIP.evaluate; frame
  · show Keeps _ CSIL.evaluate; unfold CSIL.evaluate; frame

/-- The size of the attributes assigned in `_evaluate` only (XB: after the first sample). -/
def extra (I : Index) (s : Core F) : ℕ :=
  match I with
  | .XB => s.SEP.length
  | .DB => s.R.size
  | .PS => s.vBar.length + s.PSi.length
  | .cSIL => s.silCoefs.length
  | _ => 0

/-- The same for `k` clusters and `d` features. -/
def extraSize (I : Index) (k d : ℕ) : ℕ :=
  match I with
  | .XB => if 1 < k then 1 else d
  | .DB => if 1 < k then k * k else 0
  | .PS => if 1 < k then d + k else 0
  | .cSIL => k
  | _ => 0

/-- Every attribute but `mu` and those of the tables is kept by the first statement if there are samples already. -/
theorem setupOrMu_state {setupC : Vec F → Py (Core F) Unit} {x : Vec F} {s : Core F} (h : s.nSamples ≠ 0) :
    ∃ mu, (setupOrMu setupC x s).state = { s with mu := mu } := by
  rw [setupOrMu, bind_apply, get_apply, Res.bind_ok, if_neg h, bind_apply]
  cases hr : runningMean (s.nSamples + 1) s.mu x with
  | error e => exact ⟨s.mu, rfl⟩
  | ok mu => exact ⟨mu, rfl⟩

theorem extra_incBody (I : Index) (x : Vec F) (i : ℕ) (s : Core F) (h : s.nSamples ≠ 0) :
    extra I ((mod F I).incBody x i s).state = extra I s := by
  cases I
  · rfl
  · rfl
  · refine ensures_get (P := fun t => t = s) (Q := fun t => extra .XB t = extra .XB s) (fun s0 => ensures_bind (Q := fun t => extra .XB t = extra .XB s) ?_ fun _ => ?_) s rfl
    · rintro _ rfl
      obtain ⟨mu, e⟩ := setupOrMu_state (setupC := XB.setup) (x := x) h
      rw [e]; rfl
    · unfold XB.incNew XB.incOld; frame
  · exact (by unfold DB.incBody DB.incNew DB.incOld DB.setup; frame : Keeps (fun t => extra .DB t = extra .DB s) (DB.incBody x i)) s rfl
  · rfl
  · rfl
  · exact (by unfold PS.incBody PS.incNew PS.incOld PS.setup; frame : Keeps (fun t => extra .PS t = extra .PS s) (PS.incBody x i)) s rfl
  · rfl
  · exact (by unfold CSIL.incBody CSIL.incNew CSIL.incOld CSIL.setup; frame : Keeps (fun t => extra .cSIL t = extra .cSIL s) (CSIL.incBody x i)) s rfl

/-- After the first sample -/
theorem extra_first (I : Index) (x : Vec F) (i : ℕ) : extra I ((mod F I).incBody x i (mod F I).init).state = if I = .XB then x.length else 0 := by
  cases I
  · rfl
  · rfl
  · refine ensures_get (P := fun t => t = init) (Q := fun t => extra .XB t = x.length) (fun s0 => ensures_bind (Q := fun t => extra .XB t = x.length) ?_ fun _ => ?_) init rfl
    · rintro _ rfl
      rw [setupOrMu, bind_apply, get_apply, Res.bind_ok, if_pos (show (init : Core F).nSamples = 0 from rfl)]
      show (Vec.zeros x.length).length = x.length
      simp [Vec.zeros]
    · unfold XB.incNew XB.incOld; frame
  · exact (by unfold DB.incBody DB.incNew DB.incOld DB.setup; frame : Keeps (fun t => extra .DB t = 0) (DB.incBody x i)) init rfl
  · rfl
  · rfl
  · exact (by unfold PS.incBody PS.incNew PS.incOld PS.setup; frame : Keeps (fun t => extra .PS t = 0) (PS.incBody x i)) init rfl
  · rfl
  · exact (by unfold CSIL.incBody CSIL.incNew CSIL.incOld CSIL.setup; frame : Keeps (fun t => extra .cSIL t = 0) (CSIL.incBody x i)) init rfl

theorem lift_inv {σ α : Type} {x : Except PyErr α} {s s' : σ} {a : α} (h : (Py.lift x : Py σ α) s = .ok a s') : x = .ok a ∧ s' = s := by
  cases x with
  | error e => cases h
  | ok b => cases h; exact ⟨rfl, rfl⟩

theorem extra_evaluate {I : Index} {S : Samples F} {s s' : Core F} (hR : Held I d S s) (h : (mod F I).evaluate s = .ok () s') :
    extra I s' = if 1 < (order S).length ∨ I = .cSIL then extraSize I (order S).length d else extra I s := by
  have nv := held_nv hR
  by_cases hk : 1 < (order S).length
  · rw [if_pos (Or.inl hk)]
    have hk' : s.nClusters > 1 := nv.k ▸ hk
    cases I
    · rfl
    · rfl
    · replace h : XB.evaluate s = .ok () s' := h
      rw [XB.evaluate, bind_apply, get_apply, Res.bind_ok, if_pos hk'] at h
      obtain ⟨cp, t, h1, h⟩ := bind_inv h
      obtain ⟨_, t, h1, h⟩ := bind_inv h
      obtain ⟨_, t, h1, h⟩ := bind_inv h
      obtain ⟨_, t, h1, h⟩ := bind_inv h
      cases h
      simp [extra, extraSize, hk]
    · replace h : DB.evaluate s = .ok () s' := h
      rw [DB.evaluate, bind_apply, get_apply, Res.bind_ok, if_pos hk', DB.ratios_eq hR] at h
      obtain ⟨R, t, h1, h⟩ := bind_inv h
      obtain ⟨h1, rfl⟩ := lift_inv h1
      cases h1
      obtain ⟨_, t, h1, h⟩ := bind_inv h
      cases h1
      obtain ⟨_, t, h1, h⟩ := bind_inv h
      obtain ⟨-, rfl⟩ := lift_inv h1
      cases h
      simp [extra, extraSize, hk, size_sqMat]
    · rfl
    · rfl
    · replace h : PS.evaluate s = .ok () s' := h
      rw [PS.evaluate, bind_apply, get_apply, Res.bind_ok, if_pos hk'] at h
      obtain ⟨_, t, h1, h⟩ := bind_inv h
      cases h1
      rw [bind_apply, get_apply, Res.bind_ok] at h
      obtain ⟨_, t, h1, h⟩ := bind_inv h
      obtain ⟨-, rfl⟩ := lift_inv h1
      obtain ⟨_, t, h1, h⟩ := bind_inv h
      cases h1
      rw [bind_apply, get_apply, Res.bind_ok] at h
      obtain ⟨_, t, h1, h⟩ := bind_inv h
      obtain ⟨-, rfl⟩ := lift_inv h1
      obtain ⟨ps, t, h1, h⟩ := bind_inv h
      obtain ⟨h2, rfl⟩ := lift_inv h1
      cases h
      have := mapE_length h2
      simp only [extra, extraSize, hk, if_true]
      rw [this]
      simp [Arr2.mean0, nv.v, nv.k]
    · rfl
    · replace h : CSIL.evaluate s = .ok () s' := h
      rw [CSIL.evaluate] at h
      obtain ⟨_, t, h1, h⟩ := bind_inv h
      cases h1
      rw [bind_apply, get_apply, Res.bind_ok] at h
      split at h
      · obtain ⟨cs, t, h1, h⟩ := bind_inv h
        obtain ⟨h2, rfl⟩ := lift_inv h1
        cases h
        have := mapE_length h2
        simp only [extra, extraSize]
        rw [this]
        simp [nv.k]
      · cases h
        simp [extra, extraSize, Vec.zeros, nv.k]
  · have hk' : ¬ s.nClusters > 1 := nv.k ▸ hk
    cases I
    · simp [extra, hk]
    · simp [extra, hk]
    · replace h : XB.evaluate s = .ok () s' := h
      rw [XB.evaluate, bind_apply, get_apply, Res.bind_ok, if_neg hk'] at h
      cases h
      simp [extra, hk]
    · replace h : DB.evaluate s = .ok () s' := h
      rw [DB.evaluate, bind_apply, get_apply, Res.bind_ok, if_neg hk'] at h
      cases h
      simp [extra, hk]
    · simp [extra, hk]
    · simp [extra, hk]
    · replace h : PS.evaluate s = .ok () s' := h
      rw [PS.evaluate, bind_apply, get_apply, Res.bind_ok, if_neg hk'] at h
      cases h
      simp [extra, hk]
    · simp [extra, hk]
    · replace h : CSIL.evaluate s = .ok () s' := h
      rw [CSIL.evaluate] at h
      obtain ⟨_, t, h1, h⟩ := bind_inv h
      cases h1
      rw [bind_apply, get_apply, Res.bind_ok, if_neg fun e => hk' e.1] at h
      cases h
      simp [extra, extraSize, Vec.zeros, nv.k]

end Gen
end Verif

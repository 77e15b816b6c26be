import Verif.Old.XB
import Verif.Old.PS
import Verif.Old.CH
import Verif.Old.GD
import Verif.Old.DB
import Verif.Api
import Verif.Props.Compat1
import Verif.Props.Compat2
import Verif.Props.CompatCH

/-!
# C99: the text of the older interface

`Verif/Old/Text.lean` is the source of `src/cvi/compat/v0.py` as a Lean value, written by `tools/embed_v0.py`.  `XBo.runInit` and `XBo.run x c` run the
text of `iXB.__init__` and of `iXB.update(x, c)` with the interpreter of `Verif/Old/Interp.lean`, and so on for the other classes; `stream` constructs
an object and calls `update` once per labelled sample.  The theorems say that this does what the hand-written model `Verif/Compat/V0.lean` does.
-/

namespace Verif.Old
open V0 Spec

variable {σ τ β : Type} {d : ℕ}

/-- The real number a returned value is. -/
noncomputable def PV.val : PV → Option XR
  | .num n => some n.val
  | _ => Option.none

/-- Construct an object, then call `update` for each labelled sample: the values returned, or the first exception. -/
def stream (init : Py σ PV) (update : Vec → ℤ → Py σ PV) (S : List (Vec × ℤ)) : Py σ (List PV) := fun o =>
  (init o).bind fun _ o' => V0.feed update S o'

/-- The values returned as numbers, or the first exception. -/
noncomputable def outcome (r : Res σ (List PV)) : Except PyErr (List (Option XR)) := r.val.map fun vs => vs.map PV.val

theorem feed_sim {run : Vec → ℤ → Py σ PV} {upd : Vec → ℤ → Py τ β} {Inv : σ → τ → Prop} {w : β → Option XR}
    (h : ∀ x c o s, Inv o s → Sim (fun v o' y s' => v.val = w y ∧ Inv o' s') (run x c o) (upd x c s))
    (S : List (Vec × ℤ)) : ∀ o s, Inv o s → outcome (V0.feed run S o) = (V0.feed upd S s).val.map fun ys => ys.map w := by
  induction S with
  | nil => exact fun o s _ => rfl
  | cons p S ih =>
    intro o s ho
    have h1 := h p.1 p.2 o s ho
    simp only [V0.feed, Py.bind_apply]
    cases hr : run p.1 p.2 o with
    | err e o' =>
      cases hu : upd p.1 p.2 s with
      | err e' s' =>
        rw [hr, hu] at h1
        have h1' : e = e' := h1
        rw [h1']; rfl
      | ok y s' => rw [hr, hu] at h1; exact h1.elim
    | ok v o' =>
      cases hu : upd p.1 p.2 s with
      | err e' s' => rw [hr, hu] at h1; exact h1.elim
      | ok y s' =>
        rw [hr, hu] at h1
        obtain ⟨h2, h4⟩ := h1
        have h5 := ih o' s' h4
        simp only [outcome] at h5 ⊢
        simp only [Res.bind_ok]
        cases hf : V0.feed run S o' with
        | err e o'' =>
          cases hg : V0.feed upd S s' with
          | err e' s'' =>
            rw [hf, hg] at h5
            exact h5
          | ok ys s'' => rw [hf, hg] at h5; cases h5
        | ok vs o'' =>
          cases hg : V0.feed upd S s' with
          | err e' s'' => rw [hf, hg] at h5; cases h5
          | ok ys s'' =>
            rw [hf, hg] at h5
            have h6 : vs.map PV.val = ys.map w := Except.ok.inj h5
            change Except.ok (v.val :: vs.map PV.val) = Except.ok (w y :: ys.map w)
            rw [h2, h6]

theorem stream_sim {init : Py σ PV} {run : Vec → ℤ → Py σ PV} {upd : Vec → ℤ → Py τ β} {Inv : σ → τ → Prop} {w : β → Option XR}
    {s0 : τ} {o : σ} (hi : ∃ o', init o = .ok .none o' ∧ Inv o' s0)
    (h : ∀ x c o s, Inv o s → Sim (fun v o' y s' => v.val = w y ∧ Inv o' s') (run x c o) (upd x c s))
    (S : List (Vec × ℤ)) : outcome (stream init run S o) = (V0.feed upd S s0).val.map fun ys => ys.map w := by
  obtain ⟨o', h1, h2⟩ := hi
  unfold stream
  rw [h1]
  exact feed_sim h S o' s0 h2

theorem simS_sim {α : Type} {R R' : α → σ → β → τ → Prop} {E : σ → τ → Prop} (h : ∀ a s b t, R a s b t → R' a s b t) {r : Res σ α} {m : Res τ β}
    (hs : SimS R E r m) : Sim R' r m := by
  cases r <;> cases m <;> first | exact hs.1 | exact h _ _ _ _ hs | exact hs.elim

/-! ## The functions of the file -/

/-- **C99**, `norm22`: the text computes the sum of the squares of the absolute values. -/
theorem C99_norm22 (v : Vec) : callFunc norm22 [.vec v] [] = .ok (.num (.flt true (V0.norm22 v))) := norm22_eq v

/-- **C99**, `cluster_center_update`: the new center and the new size, or the same exception. -/
theorem C99_center (x v : Vec) (n : ℕ) : callFunc cluster_center_update [.vec x, .vec v, .int n] [] =
    (centerUpdate x v n).map fun u => .list [.vec u.1, .int u.2] := by
  refine (center_eq x v n).trans ?_
  cases centerUpdate x v n <;> rfl

/-- **C99**, `CP_update` as `iXB` and `iCH` call it (`p = q = 2`) and as `iGD` calls it (`p = 1`): the new compactness, `g`, center and size, or
the same exception; `g_old` is None or an array, `cp_old` any number. -/
theorem C99_CP_update (x v : Vec) (n : ℕ) (g : Option Vec) (cp : Nm) :
    callFunc CP_update [.vec x, .vec v, .int n, gArg g, .num cp] [] =
        (cpUpdate x v n g cp.val 2 2).map (fun u => .list [.num (.flt true u.cp), .vec u.g, .vec u.v, .int u.n]) ∧
      callFunc CP_update [.vec x, .vec v, .int n, gArg g, .num cp] [(.p, .int 1)] =
        (cpUpdate x v n g cp.val 1 2).map (fun u => .list [.num (.flt true u.cp), .vec u.g, .vec u.v, .int u.n]) := by
  constructor
  · refine (cp_eq x v n g cp [] (Or.inl ⟨rfl, rfl, rfl⟩)).trans ?_
    cases cpUpdate x v n g cp.val 2 2 <;> rfl
  · refine (cp_eq x v n g cp _ (Or.inr ⟨rfl, rfl, rfl⟩)).trans ?_
    cases cpUpdate x v n g cp.val 1 2 <;> rfl

/-- A case that does not raise: the sample 2 in a cluster of the single sample 0. -/
example : callFunc cluster_center_update [.vec [.fin 2], .vec [.fin 0], .int 1] [] = .ok (.list [.vec [.fin 1], .int 2]) := by
  refine (C99_center [.fin 2] [.fin 0] 1).trans ?_
  have h : (2 : ℝ) / 2 = 1 := by norm_num
  simp [centerUpdate, Vec.sub, Vec.add, Vec.bin, vdiv, Except.map, XR.fin_div_of_ne, XR.fin_sub, XR.fin_add]

/-! ## The classes -/

/-- **C99**, `iXB`: whatever the samples — of any lengths, finite or not — and the labels, the text returns the values the model returns, or raises
the exception the model raises, at the same call. -/
theorem C99_XB (S : List (Vec × ℤ)) (o : XBo) :
    outcome (stream XBo.runInit XBo.run S o) = (V0.feed V0.XB.update S V0.XB.init).val.map fun ys => ys.map some :=
  stream_sim (Inv := XBo.Near) (XBo.init_near o) (fun x c o s h => by
    obtain ⟨h, m, hm, rfl⟩ := h
    exact simS_sim (by rintro v o' y s' ⟨⟨n, rfl, rfl⟩, h⟩; exact ⟨rfl, h⟩) (XBo.run_sim x c o h m hm)) S

/-- **C99**, `iPS`. -/
theorem C99_PS (S : List (Vec × ℤ)) (o : PSo) :
    outcome (stream PSo.runInit PSo.run S o) = (V0.feed V0.PS.update S V0.PS.init).val.map fun ys => ys.map some :=
  stream_sim (Inv := PSo.Exc) (PSo.init_eq o) (fun x c o s h => by
    obtain ⟨rfl, h⟩ := h
    exact simS_sim (by rintro v o' y s' ⟨⟨n, rfl, rfl⟩, h⟩; exact ⟨rfl, h⟩) (PSo.run_sim x c o h)) S

/-- **C99**, `iCH`. -/
theorem C99_CH (S : List (Vec × ℤ)) (o : CHo) :
    outcome (stream CHo.runInit CHo.run S o) = (V0.feed V0.CH.update S V0.CH.init).val.map fun ys => ys.map some :=
  stream_sim (Inv := CHo.Exc) (CHo.init_eq o) (fun x c o s h => by
    obtain ⟨rfl, h⟩ := h
    exact simS_sim (by rintro v o' y s' ⟨⟨n, rfl, rfl⟩, h⟩; exact ⟨rfl, h⟩) (CHo.run_sim x c o h)) S

/-- **C99**, `iGD43`. -/
theorem C99_GD43 (S : List (Vec × ℤ)) (o : GDo) :
    outcome (stream GDo.runInit43 GDo.run S o) = (V0.feed V0.GD.update S (V0.GD.init 43)).val.map fun ys => ys.map some :=
  stream_sim (Inv := GDo.Exc) (GDo.init43_eq o) (fun x c o s h => by
    obtain ⟨rfl, h⟩ := h
    exact simS_sim (by rintro v o' y s' ⟨⟨n, rfl, rfl⟩, h⟩; exact ⟨rfl, h⟩) (GDo.run_sim x c o h)) S

/-- **C99**, `iGD53`. -/
theorem C99_GD53 (S : List (Vec × ℤ)) (o : GDo) :
    outcome (stream GDo.runInit53 GDo.run S o) = (V0.feed V0.GD.update S (V0.GD.init 53)).val.map fun ys => ys.map some :=
  stream_sim (Inv := GDo.Exc) (GDo.init53_eq o) (fun x c o s h => by
    obtain ⟨rfl, h⟩ := h
    exact simS_sim (by rintro v o' y s' ⟨⟨n, rfl, rfl⟩, h⟩; exact ⟨rfl, h⟩) (GDo.run_sim x c o h)) S

/-- **C99**, `iDB`.  The lines of the text the model leaves out (974-999) are never reached. -/
theorem C99_DB (S : List (Vec × ℤ)) (o : DBo) :
    outcome (stream DBo.runInit DBo.run S o) = (V0.feed V0.DB.update S V0.DB.init).val :=
  (stream_sim (w := id) (Inv := DBo.Exc) (DBo.init_eq o) (fun x c o s h => by
    obtain ⟨rfl, h⟩ := h
    exact simS_sim (by rintro v o' y s' ⟨⟨n, rfl, hy⟩, h⟩; exact ⟨hy, h⟩) (DBo.run_sim x c o h)) S).trans (by
      cases V0.feed V0.DB.update S V0.DB.init with
      | ok ys s => simp [Res.val, Except.map]
      | err e s => rfl)

/-! ## What the text computes -/

/-- **C99** with C43: on a stream in order the text of `iXB` returns after each sample the Xie-Beni index with the least separation of the whole history. -/
theorem C99_XB_value {S : Stream d} (hS : InOrder S) (o : XBo) :
    outcome (stream XBo.runInit XBo.run (encS S) o) = .ok ((List.range S.length).map fun i => some (histXB (S.take (i + 1)))) := by
  obtain ⟨s, h⟩ := C43_run hS
  rw [C99_XB, h]
  simp [Res.val, Except.map, Function.comp_def]

/-- **C99** with C42: the text of `iPS` returns 0 after every sample of a stream in order. -/
theorem C99_PS_value {S : Stream d} (hS : InOrder S) (o : PSo) :
    outcome (stream PSo.runInit PSo.run (encS S) o) = .ok (List.replicate S.length (some 0)) := by
  obtain ⟨s, h⟩ := C42_run hS
  rw [C99_PS, h]
  simp [Res.val, Except.map]

/-- **C99** with C92: on every stream whose labels fit, the text of `iCH` returns what C92 says. -/
theorem C99_CH_value {S : Stream d} (hS : AllFit S) (o : CHo) :
    outcome (stream CHo.runInit CHo.run (encS S) o) = .ok ((List.range S.length).map fun i => some (staleCH (S.take (i + 1)))) := by
  obtain ⟨s, h⟩ := C92_accepts hS
  rw [C99_CH, h]
  simp [Res.val, Except.map, Function.comp_def]

/-- **C99** with C45: the text of `iGD43` and of `iGD53` raises AttributeError on every stream in order that has two samples of some cluster. -/
theorem C99_GD_raises {S : Stream d} (hS : InOrder S) (hd : ¬ (S.map Prod.snd).Nodup) (o : GDo) :
    outcome (stream GDo.runInit43 GDo.run (encS S) o) = .error .attributeError ∧
      outcome (stream GDo.runInit53 GDo.run (encS S) o) = .error .attributeError := by
  obtain ⟨s, h⟩ := C45_false 43 hS hd
  obtain ⟨s', h'⟩ := C45_false 53 hS hd
  rw [C99_GD43, C99_GD53, h, h']
  exact ⟨rfl, rfl⟩

/-- **C99** with C46: the text of `iDB` raises IndexError on every such stream. -/
theorem C99_DB_raises {S : Stream d} (hS : InOrder S) (hd : ¬ (S.map Prod.snd).Nodup) (o : DBo) :
    outcome (stream DBo.runInit DBo.run (encS S) o) = .error .indexError := by
  obtain ⟨s, h⟩ := C46_false hS hd
  rw [C99_DB, h]
  rfl

/-- The hypotheses are met by three samples in two clusters. -/
example : InOrder demo ∧ AllFit demo ∧ ¬ (demo.map Prod.snd).Nodup := ⟨demo_inOrder, demo_allFit, by simp [demo]⟩

/-- On them the text of `iCH` returns 0, 0 and 67/81. -/
example (o : CHo) : outcome (stream CHo.runInit CHo.run (encS demo) o) = .ok [some 0, some 0, some (.fin (67 / 81))] := by
  obtain ⟨s, h, -⟩ := C44_value_false
  rw [C99_CH, h]
  rfl

/-- A cluster number that skips one raises in the text as in the model. -/
example (o : XBo) : outcome (stream XBo.runInit XBo.run [([.fin 0], 0), ([.fin 1], 2)] o) = .error .valueError := by
  rw [C99_XB]
  simp [V0.feed, V0.XB.update, V0.XB.init, getAt, setAt, pyIdx, sepList, mapE, Res.val, Except.map]

end Verif.Old

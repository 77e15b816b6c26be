import Verif.Props.OldText2

/-!
# C101: the text of the older interface when exceptions are caught

C99 compares the text with the model up to the first exception.  Here the caller catches every exception and carries on with the same object, which is
in whatever condition the exception left it.
-/

namespace Verif.Old
open V0 Spec

variable {σ τ ι α β : Type} {d : ℕ}

/-- Construct an object with the text of `__init__`, then call `update` for each labelled sample, catching every exception. -/
def carryOn (init : Py σ PV) (run : Vec → ℤ → Py σ PV) (S : List (Vec × ℤ)) (o : σ) : List (Except PyErr PV) × σ :=
  session (fun p : Vec × ℤ => run p.1 p.2) S (init o).state

/-- The numbers returned, or the exceptions. -/
noncomputable def outcomes (l : List (Except PyErr PV)) : List (Except PyErr (Option XR)) := l.map fun r => r.map PV.val

/-- The same in the model. -/
def modelOn (upd : Vec → ℤ → Py τ β) (S : List (Vec × ℤ)) (s : τ) : List (Except PyErr β) × τ := session (fun p : Vec × ℤ => upd p.1 p.2) S s

theorem modelOn_state (upd : Vec → ℤ → Py τ β) (S : List (Vec × ℤ)) (s : τ) : (modelOn upd S s).2 = V0.afterAll upd S s := by
  unfold modelOn
  induction S generalizing s with
  | nil => rfl
  | cons p S ih => exact ih _

theorem carryOn_sim {init : Py σ PV} {run : Vec → ℤ → Py σ PV} {upd : Vec → ℤ → Py τ β} {Inv : σ → τ → Prop} {w : β → Option XR} {s0 : τ} {o : σ}
    (hi : ∃ o', init o = .ok .none o' ∧ Inv o' s0)
    (h : ∀ x c o s, Inv o s → SimS (fun v o' y s' => v.val = w y ∧ Inv o' s') Inv (run x c o) (upd x c s)) (S : List (Vec × ℤ)) :
    outcomes (carryOn init run S o).1 = (modelOn upd S s0).1.map (fun r => r.map w) ∧ Inv (carryOn init run S o).2 (modelOn upd S s0).2 := by
  obtain ⟨o', h1, h2⟩ := hi
  unfold carryOn modelOn outcomes
  rw [h1]
  exact session_sim (fun p o s => h p.1 p.2 o s) S o' s0 h2

/-- What a call of the model's session did. -/
theorem modelOn_mem {upd : Vec → ℤ → Py τ β} {S : List (Vec × ℤ)} {s : τ} {r : Except PyErr β} (h : r ∈ (modelOn upd S s).1) :
    ∃ (S1 : List (Vec × ℤ)) (p : Vec × ℤ), r = (upd p.1 p.2 (V0.afterAll upd S1 s)).val := by
  induction S generalizing s with
  | nil => cases h
  | cons p S ih =>
    rcases List.mem_cons.1 h with rfl | h
    · exact ⟨[], p, rfl⟩
    · obtain ⟨S1, q, hr⟩ := ih h
      exact ⟨p :: S1, q, hr⟩

/-! ## The same outcomes -/

/-- **C101**, `iXB`: whatever the samples and the labels, every call of the text returns what the model returns or raises what it raises; the objects
agree at the end but for the entries of `min_v_i`, which a later call never reads before setting them. -/
theorem C101_XB (S : List (Vec × ℤ)) (o : XBo) :
    outcomes (carryOn XBo.runInit XBo.run S o).1 = (modelOn V0.XB.update S V0.XB.init).1.map (fun r => r.map some) ∧
      (carryOn XBo.runInit XBo.run S o).2.Near (modelOn V0.XB.update S V0.XB.init).2 :=
  carryOn_sim (XBo.init_near o) (fun x c o s h => by
    obtain ⟨h, m, hm, rfl⟩ := h
    exact simS_mono (by rintro v o' y s' ⟨⟨n, rfl, rfl⟩, h⟩; exact ⟨rfl, h⟩) (fun _ _ h => h) (XBo.run_sim x c o h m hm)) S

/-- **C101**, `iPS`. -/
theorem C101_PS (S : List (Vec × ℤ)) (o : PSo) :
    outcomes (carryOn PSo.runInit PSo.run S o).1 = (modelOn V0.PS.update S V0.PS.init).1.map (fun r => r.map some) ∧
      (carryOn PSo.runInit PSo.run S o).2.Exc (modelOn V0.PS.update S V0.PS.init).2 :=
  carryOn_sim (PSo.init_eq o) (fun x c o s h => by
    obtain ⟨rfl, h⟩ := h
    exact simS_mono (by rintro v o' y s' ⟨⟨n, rfl, rfl⟩, h⟩; exact ⟨rfl, h⟩) (fun _ _ h => h) (PSo.run_sim x c o h)) S

/-- **C101**, `iCH`. -/
theorem C101_CH (S : List (Vec × ℤ)) (o : CHo) :
    outcomes (carryOn CHo.runInit CHo.run S o).1 = (modelOn V0.CH.update S V0.CH.init).1.map (fun r => r.map some) ∧
      (carryOn CHo.runInit CHo.run S o).2.Exc (modelOn V0.CH.update S V0.CH.init).2 :=
  carryOn_sim (CHo.init_eq o) (fun x c o s h => by
    obtain ⟨rfl, h⟩ := h
    exact simS_mono (by rintro v o' y s' ⟨⟨n, rfl, rfl⟩, h⟩; exact ⟨rfl, h⟩) (fun _ _ h => h) (CHo.run_sim x c o h)) S

/-- **C101**, `iGD43`. -/
theorem C101_GD43 (S : List (Vec × ℤ)) (o : GDo) :
    outcomes (carryOn GDo.runInit43 GDo.run S o).1 = (modelOn V0.GD.update S (V0.GD.init 43)).1.map (fun r => r.map some) ∧
      (carryOn GDo.runInit43 GDo.run S o).2.Exc (modelOn V0.GD.update S (V0.GD.init 43)).2 :=
  carryOn_sim (GDo.init43_eq o) (fun x c o s h => by
    obtain ⟨rfl, h⟩ := h
    exact simS_mono (by rintro v o' y s' ⟨⟨n, rfl, rfl⟩, h⟩; exact ⟨rfl, h⟩) (fun _ _ h => h) (GDo.run_sim x c o h)) S

/-- **C101**, `iGD53`. -/
theorem C101_GD53 (S : List (Vec × ℤ)) (o : GDo) :
    outcomes (carryOn GDo.runInit53 GDo.run S o).1 = (modelOn V0.GD.update S (V0.GD.init 53)).1.map (fun r => r.map some) ∧
      (carryOn GDo.runInit53 GDo.run S o).2.Exc (modelOn V0.GD.update S (V0.GD.init 53)).2 :=
  carryOn_sim (GDo.init53_eq o) (fun x c o s h => by
    obtain ⟨rfl, h⟩ := h
    exact simS_mono (by rintro v o' y s' ⟨⟨n, rfl, rfl⟩, h⟩; exact ⟨rfl, h⟩) (fun _ _ h => h) (GDo.run_sim x c o h)) S

/-- **C101**, `iDB`. -/
theorem C101_DB (S : List (Vec × ℤ)) (o : DBo) :
    outcomes (carryOn DBo.runInit DBo.run S o).1 = (modelOn V0.DB.update S V0.DB.init).1 ∧
      (carryOn DBo.runInit DBo.run S o).2.Exc (modelOn V0.DB.update S V0.DB.init).2 := by
  have h := carryOn_sim (w := id) (Inv := DBo.Exc) (DBo.init_eq o) (fun x c o s h => by
    obtain ⟨rfl, h⟩ := h
    exact simS_mono (by rintro v o' y s' ⟨⟨n, rfl, hy⟩, h⟩; exact ⟨hy, h⟩) (fun _ _ h => h) (DBo.run_sim x c o h)) S
  refine ⟨h.1.trans ?_, h.2⟩
  conv_rhs => rw [← List.map_id (modelOn V0.DB.update S V0.DB.init).1]
  exact List.map_congr_left fun r _ => by cases r <;> rfl

/-! ## What the text does -/

/-- **C101** with C42: in any such session, every number the text of `iPS` returns is 0. -/
theorem C101_PS_zero (S : List (Vec × ℤ)) (o : PSo) (y : Option XR) (h : .ok y ∈ outcomes (carryOn PSo.runInit PSo.run S o).1) : y = some 0 := by
  rw [(C101_PS S o).1] at h
  obtain ⟨r, hr, hy⟩ := List.mem_map.1 h
  obtain ⟨S1, p, rfl⟩ := modelOn_mem hr
  cases hu : V0.PS.update p.1 p.2 (V0.afterAll V0.PS.update S1 V0.PS.init) with
  | err e s => rw [hu] at hy; cases hy
  | ok z s =>
    rw [hu] at hy
    cases hy
    rw [C42_always_zero S1 p.1 p.2 z s hu]

theorem modelGD_zero (t : ℕ) (S : List (Vec × ℤ)) (y : Option XR) (h : .ok y ∈ (modelOn V0.GD.update S (V0.GD.init t)).1.map fun r => r.map some) :
    y = some 0 := by
  obtain ⟨r, hr, hy⟩ := List.mem_map.1 h
  obtain ⟨S1, p, rfl⟩ := modelOn_mem hr
  rcases C45_zero_partial t S1 p.1 p.2 with ⟨s, hu⟩ | ⟨e, s, hu⟩
  · rw [hu] at hy
    cases hy
    rfl
  · rw [hu] at hy; cases hy

/-- **C101** with C45: so is every number the text of `iGD43` or `iGD53` returns. -/
theorem C101_GD_zero (S : List (Vec × ℤ)) (o : GDo) (y : Option XR)
    (h : .ok y ∈ outcomes (carryOn GDo.runInit43 GDo.run S o).1 ∨ .ok y ∈ outcomes (carryOn GDo.runInit53 GDo.run S o).1) : y = some 0 := by
  rcases h with h | h
  · exact modelGD_zero 43 S y ((C101_GD43 S o).1 ▸ h)
  · exact modelGD_zero 53 S y ((C101_GD53 S o).1 ▸ h)

/-- **C101** with C46: after any such session the text of `iDB` has counted every call, returns 0 for the next new cluster, and raises for every other
label, changing nothing but the count. -/
theorem C101_DB_any (S : List (Vec × ℤ)) (o : DBo) (x : Vec) (c : ℤ) :
    let q := (carryOn DBo.runInit DBo.run S o).2
    q.N = S.length ∧ (c = q.centers.length → (DBo.run x c q).val.map PV.val = .ok (some 0)) ∧
      (c ≠ q.centers.length → (∃ e, (DBo.run x c q).val = .error e) ∧ (DBo.run x c q).state.abs = { q.abs with N := S.length + 1 }) := by
  intro q
  obtain ⟨h1, h2⟩ := (C101_DB S o).2
  rw [modelOn_state] at h1
  have hr := DBo.run_sim x c q h2
  obtain ⟨h3, h4⟩ := C46_any_partial S x c
  rw [← h1] at h3 h4
  refine ⟨h3, fun hc => ?_, fun hc => ?_⟩
  · rcases h4 with ⟨-, s', h4⟩ | ⟨h4, -⟩
    · rw [h4] at hr
      cases hq : DBo.run x c q with
      | err e o' => rw [hq] at hr; exact hr.elim
      | ok v o' =>
        rw [hq] at hr
        obtain ⟨⟨n, rfl, hn⟩, -⟩ := hr
        exact congrArg Except.ok hn
    · exact absurd hc h4
  · rcases h4 with ⟨h4, -⟩ | ⟨-, e, h4⟩
    · exact absurd h4 hc
    · rw [h4] at hr
      cases hq : DBo.run x c q with
      | ok v o' => rw [hq] at hr; exact hr.elim
      | err e' o' =>
        rw [hq] at hr
        exact ⟨⟨e', rfl⟩, hr.2.1⟩

/-- **C101** with C48: after any such session the text of `iGD43` and `iGD53` rejects a label that is too large and keeps its object. -/
theorem C101_GD_too_large (S : List (Vec × ℤ)) (o : GDo) (x : Vec) (c : ℤ) :
    (∀ q, q = (carryOn GDo.runInit43 GDo.run S o).2 ∨ q = (carryOn GDo.runInit53 GDo.run S o).2 → c > q.centers.length →
      (GDo.run x c q).val = .error .valueError ∧ (GDo.run x c q).state.abs = q.abs) := by
  intro q hq hc
  have hg : q.Good := by
    rcases hq with rfl | rfl
    · exact (C101_GD43 S o).2.2
    · exact (C101_GD53 S o).2.2
  have hr := GDo.run_sim x c q hg
  have hm := (C48_partial x 0 c).1 q.abs hc (hg.cs ▸ hc)
  rw [hm] at hr
  cases h : GDo.run x c q with
  | ok v o' => rw [h] at hr; exact hr.elim
  | err e o' =>
    rw [h] at hr
    obtain ⟨rfl, h1, -⟩ := hr
    exact ⟨rfl, h1⟩

/-- A session with an exception in the middle: `iDB` with the labels 0, 0 and 1. -/
example (o : DBo) : outcomes (carryOn DBo.runInit DBo.run [([.fin 0], 0), ([.fin 1], 0), ([.fin 5], 1)] o).1 =
    [.ok (some 0), .error .indexError, .ok (some 0)] := by
  rw [(C101_DB _ o).1]
  simp [modelOn, session, V0.DB.update, V0.DB.init, getAt, pyIdx, Res.val, Res.state]

/-- `iGD43` with the same labels and then one that is too large. -/
example (o : GDo) : (GDo.run [.fin 1] 7 (carryOn GDo.runInit43 GDo.run [([.fin 0], 0)] o).2).val = .error .valueError := by
  have h := (C101_GD43 [([.fin 0], 0)] o).2.1
  have key := C101_GD_too_large [([.fin 0], 0)] o [.fin 1] 7 _ (Or.inl rfl)
  generalize (carryOn GDo.runInit43 GDo.run [([.fin 0], 0)] o).2 = q at h key
  refine (key ?_).1
  have h' : q.centers = [[.fin 0]] := by
    refine (congrArg V0.GD.centers h).trans ?_
    simp [modelOn, session, V0.GD.update, V0.GD.init, Res.state]
  rw [h']
  simp

end Verif.Old

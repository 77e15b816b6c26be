import Verif.Model.AnyLabel
import Verif.Props.Labels
import Verif.Props.AnyArith

/-!
# C95: labels of any kind in incremental mode
-/

namespace Verif
open Py

variable {F K K' : Type} [DecidableEq K] [DecidableEq K']

/-- What a caller sees who presents samples one by one, catching exceptions. -/
def keyOutcomes (M : Module F) : List (Vec F × Option K) → KeyObj K F → List (Except PyErr F)
  | [], _ => []
  | p :: l, o => (keyCvi M p.1 p.2 o).val :: keyOutcomes M l (keyCvi M p.1 p.2 o).state

/-- A freshly constructed object. -/
def KeyObj.fresh (K : Type) (M : Module F) : KeyObj K F := ⟨[], M.init⟩

/-- The same for integer labels, or label vectors (which are not hashable). -/
def argOutcomes (M : Module F) : List (Vec F × LabelArg) → Obj F → List (Except PyErr F)
  | [], _ => []
  | p :: l, o => (getCvi M (.d1 p.1) p.2 o).val :: argOutcomes M l (getCvi M (.d1 p.1) p.2 o).state

/-- The place where a label occurs first. -/
def firstPlace (ls : List (Option K)) (c : K) : ℤ := (ls.idxOf (some c) : ℕ)

/-- A label, replaced by the place where it occurs first in `ls`; a label that is not hashable, by a label vector. -/
def asArg (ls : List (Option K)) : Option K → LabelArg
  | none => .arr []
  | some c => .int (firstPlace ls c)

/-! ## Simulation -/

/-- The dict with its keys renamed -/
def renameKeys (f : K → ℤ) (m : List (K × ℕ)) : LabelMap := m.map fun p => (f p.1, p.2)

theorem lookup_renameKeys {f : K → ℤ} {c : K} : ∀ {m : List (K × ℕ)}, (∀ p ∈ m, f c = f p.1 → c = p.1) →
    List.lookup (f c) (renameKeys f m) = List.lookup c m
  | [], _ => rfl
  | p :: m, h => by
    rw [renameKeys, List.map_cons, List.lookup_cons, List.lookup_cons]
    have ih := lookup_renameKeys (f := f) (c := c) (m := m) fun q hq => h q (List.mem_cons_of_mem _ hq)
    by_cases e : c = p.1
    · simp [e]
    · have h1 : (c == p.1) = false := by simpa using e
      have h2 : (f c == f p.1) = false := by simpa using fun e' => e (h p List.mem_cons_self e')
      rw [h1, h2]
      exact ih

theorem keyLabel_rename {f : K → ℤ} {c : K} {m : List (K × ℕ)} (h : ∀ p ∈ m, f c = f p.1 → c = p.1) :
    LabelMap.getInternalLabel (renameKeys f m) (f c) = ((keyLabel m c).1, renameKeys f (keyLabel m c).2) := by
  unfold LabelMap.getInternalLabel keyLabel
  rw [lookup_renameKeys h]
  cases List.lookup c m with
  | some i => rfl
  | none => simp [renameKeys]

theorem keyLabel_keys {c : K} {m : List (K × ℕ)} {p : K × ℕ} (hp : p ∈ (keyLabel m c).2) : p ∈ m ∨ p.1 = c := by
  unfold keyLabel at hp
  cases h : List.lookup c m with
  | some i => rw [h] at hp; exact .inl hp
  | none =>
    rw [h] at hp
    rcases List.mem_append.mp hp with hp | hp
    · exact .inl hp
    · rw [List.mem_singleton.mp hp]; exact .inr rfl

/-- The object with the keys of its dict renamed -/
def KeyObj.rename (f : K → ℤ) (o : KeyObj K F) : Obj F := ⟨renameKeys f o.labelMap, o.core⟩

theorem keyCvi_some (M : Module F) {f : K → ℤ} (x : Vec F) (c : K) (o : KeyObj K F) (h : ∀ p ∈ o.labelMap, f c = f p.1 → c = p.1) :
    getCvi M (.d1 x) (.int (f c)) (o.rename f) = (keyCvi M x (some c) o).mapState (KeyObj.rename f) := by
  simp only [getCvi, Py.bind_apply, Module.update, Module.paramInc, keyCvi]
  split
  · rfl
  · rw [show (o.rename f).labelMap = renameKeys f o.labelMap from rfl, keyLabel_rename h]
    simp only [onCore]
    show Res.bind ((M.incBody x _ o.core).mapState _) _ = _
    cases M.incBody x (keyLabel o.labelMap c).1 o.core with
    | err e s => rfl
    | ok a s =>
      simp only [Res.mapState, Res.bind_ok]
      show Res.bind ((M.evaluate s).mapState _) _ = _
      cases M.evaluate s with
      | err e s => rfl
      | ok a s => rfl

theorem keyCvi_none (M : Module F) {f : K → ℤ} (x : Vec F) (o : KeyObj K F) :
    getCvi M (.d1 x) (.arr []) (o.rename f) = (keyCvi M x none o).mapState (KeyObj.rename f) := by
  simp only [getCvi, Py.bind_apply, Module.update, Module.paramInc, keyCvi]
  split <;> rfl

theorem keyCvi_keys (M : Module F) (x : Vec F) (c : Option K) (o : KeyObj K F) {p : K × ℕ} (hp : p ∈ (keyCvi M x c o).state.labelMap) :
    p ∈ o.labelMap ∨ c = some p.1 := by
  unfold keyCvi at hp
  split at hp
  · exact .inl hp
  · cases c with
    | none => exact .inl hp
    | some c =>
      simp only at hp
      have key : p ∈ (keyLabel o.labelMap c).2 → p ∈ o.labelMap ∨ some c = some p.1 := fun h => (keyLabel_keys h).imp id fun e => by rw [e]
      cases h : M.incBody x (keyLabel o.labelMap c).1 o.core with
      | err e s => rw [h] at hp; exact key hp
      | ok a s =>
        rw [h] at hp
        simp only at hp
        cases h : M.evaluate s with
        | err e s => rw [h] at hp; exact key hp
        | ok a s => rw [h] at hp; exact key hp

theorem keyOutcomes_rename (M : Module F) (f : K → ℤ) : ∀ (l : List (Vec F × Option K)) (o : KeyObj K F),
    (∀ a b : K, (∃ p ∈ l, p.2 = some a) → ((∃ p ∈ l, p.2 = some b) ∨ ∃ p ∈ o.labelMap, p.1 = b) → f a = f b → a = b) →
    argOutcomes M (l.map fun p => (p.1, match p.2 with | none => .arr [] | some c => .int (f c))) (o.rename f) = keyOutcomes M l o
  | [], _, _ => rfl
  | p :: l, o, h => by
    rw [List.map_cons, argOutcomes, keyOutcomes]
    have e : getCvi M (.d1 p.1) (match p.2 with | none => .arr [] | some c => .int (f c)) (o.rename f) =
        (keyCvi M p.1 p.2 o).mapState (KeyObj.rename f) := by
      cases hc : p.2 with
      | none => exact keyCvi_none M p.1 o
      | some c => exact keyCvi_some M p.1 c o fun q hq e => h c q.1 ⟨p, List.mem_cons_self, hc⟩ (.inr ⟨q, hq, rfl⟩) e
    have hv : ∀ r : Res (KeyObj K F) F, (r.mapState (KeyObj.rename f)).val = r.val ∧
        (r.mapState (KeyObj.rename f)).state = r.state.rename f := by
      intro r; cases r <;> exact ⟨rfl, rfl⟩
    rw [e, (hv _).1, (hv _).2, keyOutcomes_rename M f l _ fun a b ⟨q, hq, ha⟩ hb => h a b ⟨q, List.mem_cons_of_mem _ hq, ha⟩ ?_]
    rcases hb with ⟨q, hq, hb⟩ | ⟨q, hq, rfl⟩
    · exact .inl ⟨q, List.mem_cons_of_mem _ hq, hb⟩
    · rcases keyCvi_keys M p.1 p.2 o hq with hq | hq
      · exact .inr ⟨q, hq, rfl⟩
      · exact .inl ⟨p, List.mem_cons_self, hq⟩

theorem firstPlace_inj {ls : List (Option K)} {a b : K} (ha : some a ∈ ls) (h : firstPlace ls a = firstPlace ls b) : a = b := by
  unfold firstPlace at h
  exact Option.some.inj ((List.idxOf_inj ha).mp (by exact_mod_cast h))

theorem idxOf_map {α β : Type} [BEq α] [LawfulBEq α] [BEq β] [LawfulBEq β] {f : α → β} (hf : Function.Injective f) (a : α) :
    ∀ l : List α, (l.map f).idxOf (f a) = l.idxOf a
  | [] => rfl
  | b :: l => by
    rw [List.map_cons, List.idxOf_cons, List.idxOf_cons, idxOf_map hf a l]
    by_cases h : b = a
    · simp [h]
    · rw [beq_false_of_ne h, beq_false_of_ne (hf.ne h)]

theorem argOutcomes_feed (M : Module F) : ∀ (l : List (Vec F × ℤ)) (o : Obj F) (vs : List F), (feed M l o).val = .ok vs →
    argOutcomes M (l.map fun p => (p.1, .int p.2)) o = vs.map .ok
  | [], o, vs, h => by
    have : ([] : List F) = vs := Except.ok.inj h
    rw [← this]; rfl
  | p :: l, o, vs, h => by
    rw [feed, Py.bind_apply] at h
    rw [List.map_cons, argOutcomes]
    cases e : getCvi M (.d1 p.1) (.int p.2) o with
    | err a s => rw [e] at h; cases h
    | ok r s =>
      rw [e, Res.bind_ok, Py.bind_apply] at h
      cases e' : feed M l s with
      | err a s => rw [e'] at h; cases h
      | ok rs s' =>
        rw [e'] at h
        have : r :: rs = vs := Except.ok.inj h
        rw [← this, List.map_cons]
        show _ :: argOutcomes M _ s = _
        rw [argOutcomes_feed M l s rs (by rw [e']; rfl)]
        rfl

/-! ## C95 -/

/-- **C95**: in incremental mode the caller sees what they would see if every label was replaced by the place of its first occurrence, whatever
the labels are; labels that are not hashable are rejected like label vectors. -/
theorem C95_any_label (M : Module F) (l : List (Vec F × Option K)) :
    keyOutcomes M l (KeyObj.fresh K M) = argOutcomes M (l.map fun p => (p.1, asArg (l.map Prod.snd) p.2)) M.fresh := by
  have h := keyOutcomes_rename M (firstPlace (l.map Prod.snd)) l (KeyObj.fresh K M) (by
    rintro a b ⟨p, hp, ha⟩ - e
    exact firstPlace_inj (List.mem_map.mpr ⟨p, hp, ha⟩) e)
  rw [← h]
  congr 1

/-- Labels of one kind may be replaced by labels of another one to one. -/
theorem C95_rename (M : Module F) (f : K → K') (hf : Function.Injective f) (l : List (Vec F × Option K)) :
    keyOutcomes M (l.map fun p => (p.1, p.2.map f)) (KeyObj.fresh K' M) = keyOutcomes M l (KeyObj.fresh K M) := by
  rw [C95_any_label, C95_any_label, List.map_map, List.map_map]
  congr 1
  refine List.map_congr_left fun p _ => ?_
  have e : l.map (Prod.snd ∘ fun p : Vec F × Option K => (p.1, p.2.map f)) = (l.map Prod.snd).map (Option.map f) := by
    rw [List.map_map]; rfl
  simp only [Function.comp_apply, e]
  cases p.2 with
  | none => rfl
  | some c =>
    simp only [Option.map_some, asArg, firstPlace]
    rw [show some (f c) = Option.map f (some c) from rfl, idxOf_map (Option.map_injective hf)]

/-- A label that is not hashable raises TypeError and changes nothing. -/
theorem C95_not_hashable (M : Module F) (hM : M.abstract = false) (x : Vec F) (o : KeyObj K F) : keyCvi M x none o = .err .typeError o := by
  simp [keyCvi, hM]

/-- In terms of the written-down expressions (C62): for any kind of labels, every class but rCIP returns the value of the samples so far, with
labels replaced by places. -/
theorem C95_values [Arith F] {d : ℕ} (I : Index) (hI : I ≠ .rCIP) (l : List (Vec F × K)) (hl : ∀ p ∈ l, p.1.length = d) :
    keyOutcomes (Gen.mod F I) (l.map fun p => (p.1, some p.2)) (KeyObj.fresh K (Gen.mod F I)) =
      ((l.map fun p => (p.1, firstPlace (l.map fun p => some p.2) p.2)).inits.tail.map fun S => .ok (Gen.value d I S)) := by
  have hd : Gen.Samples.Dim d (l.map fun p => (p.1, firstPlace (l.map fun p => some p.2) p.2)) := by
    intro p hp
    obtain ⟨q, hq, rfl⟩ := List.mem_map.mp hp
    exact hl q hq
  have h := argOutcomes_feed _ _ _ _ (Gen.C62_every_arithmetic I hI _ hd)
  rw [List.map_map, List.map_map] at h
  rw [C95_any_label, List.map_map, List.map_map]
  exact h

/-! ## Cases -/

/-- Text and numbers as labels, some repeated. -/
inductive Tag where
  | text (s : String)
  | number (q : ℚ)
  deriving DecidableEq

/-- Labels `"a"`, `1/2`, `"a"`, `"b"`, `1/2`: the same as labels 0, 1, 0, 3, 1. -/
example [Arith F] (x : Fin 5 → Vec F) (hx : ∀ i, (x i).length = 2) :
    keyOutcomes (Gen.mod F .DB) [(x 0, some (Tag.text "a")), (x 1, some (.number (1 / 2))), (x 2, some (.text "a")), (x 3, some (.text "b")),
        (x 4, some (.number (1 / 2)))] (KeyObj.fresh Tag (Gen.mod F .DB)) =
      [.ok (Gen.value 2 .DB [(x 0, 0)]), .ok (Gen.value 2 .DB [(x 0, 0), (x 1, 1)]), .ok (Gen.value 2 .DB [(x 0, 0), (x 1, 1), (x 2, 0)]),
        .ok (Gen.value 2 .DB [(x 0, 0), (x 1, 1), (x 2, 0), (x 3, 3)]),
        .ok (Gen.value 2 .DB [(x 0, 0), (x 1, 1), (x 2, 0), (x 3, 3), (x 4, 1)])] := by
  have h := C95_values (F := F) (d := 2) .DB (by decide) [(x 0, Tag.text "a"), (x 1, .number (1 / 2)), (x 2, .text "a"), (x 3, .text "b"),
    (x 4, .number (1 / 2))] (by simp [hx])
  have e : ∀ t ∈ [Tag.text "a", .number (1 / 2), .text "b"],
      firstPlace [some (Tag.text "a"), some (.number (1 / 2)), some (.text "a"), some (.text "b"), some (.number (1 / 2))] t =
        if t = .text "a" then 0 else if t = .text "b" then 3 else 1 := by decide +kernel
  simp only [List.map_cons, List.map_nil] at h
  rw [e _ (by simp), e _ (by simp), e _ (by simp)] at h
  exact h

/-- A list as a label. -/
example [Arith F] (x : Vec F) : keyCvi (Gen.mod F .CH) x (none : Option Tag) (KeyObj.fresh Tag (Gen.mod F .CH)) =
    .err .typeError (KeyObj.fresh Tag (Gen.mod F .CH)) := C95_not_hashable _ rfl _ _

end Verif

import Verif.Api
import Verif.Proofs.Keys

/-!
# C01, C02: labels
-/

namespace Verif
open Spec

/-- The answers of a label map asked for the labels `ls` in order, and the map afterwards. -/
def LabelMap.ask : LabelMap → List ℤ → List ℕ × LabelMap
  | m, [] => ([], m)
  | m, c :: ls =>
    let r := m.getInternalLabel c
    let q := LabelMap.ask r.2 ls
    (r.1 :: q.1, q.2)

/-- The answers of a new label map. -/
def internalLabels (ls : List ℤ) : List ℕ := (LabelMap.ask [] ls).1

theorem idxOf_addKey {ks : List ℤ} {a c : ℤ} (ha : a ∈ ks) : (addKey ks c).idxOf a = ks.idxOf a := by
  unfold addKey; split
  · rfl
  · rw [List.idxOf_append_of_mem ha]

theorem idxOf_foldl_addKey (l : List ℤ) {ks : List ℤ} {a : ℤ} (ha : a ∈ ks) :
    (l.foldl addKey ks).idxOf a = ks.idxOf a := by
  induction l generalizing ks with
  | nil => rfl
  | cons b l ih =>
    rw [List.foldl_cons, ih (mem_addKey.2 (.inl ha)), idxOf_addKey ha]

theorem ask_mapOf (ls ks : List ℤ) :
    LabelMap.ask (mapOf ks) ls = (ls.map (ls.foldl addKey ks).idxOf, mapOf (ls.foldl addKey ks)) := by
  induction ls generalizing ks with
  | nil => rfl
  | cons c ls ih =>
    have h : (mapOf ks).getInternalLabel c = ((addKey ks c).idxOf c, mapOf (addKey ks c)) := by
      rw [getInternalLabel_mapOf]
      unfold addKey; split
      · rfl
      · rename_i hc
        simp [List.idxOf_append_of_notMem hc, List.idxOf_eq_length_iff.2 hc]
    rw [LabelMap.ask, h, ih, List.map_cons, List.foldl_cons,
      idxOf_foldl_addKey ls (mem_addKey.2 (.inr rfl))]

theorem internalLabels_eq (ls : List ℤ) : internalLabels ls = ls.map (firstSeen ls).idxOf := by
  have := ask_mapOf ls []
  rw [internalLabels, show ([] : LabelMap) = mapOf [] from rfl, this]
  rfl

theorem length_firstSeen (l : List ℤ) : (firstSeen l).length = l.toFinset.card := by
  rw [← List.toFinset_card_of_nodup (firstSeen_nodup l)]
  congr 1
  ext a
  simp [mem_firstSeen]

/-- The number of a label is the number of distinct labels before its first occurrence. -/
theorem idxOf_firstSeen {ls : List ℤ} {c : ℤ} (h : c ∈ ls) :
    (firstSeen ls).idxOf c = (ls.take (ls.idxOf c)).toFinset.card := by
  obtain ⟨p, q, rfl, hp⟩ := List.eq_append_cons_of_mem h
  have e : firstSeen (p ++ c :: q) = q.foldl addKey (addKey (firstSeen p) c) := by
    simp [firstSeen]
  have hc : c ∉ firstSeen p := by rw [mem_firstSeen]; exact hp
  rw [e, idxOf_foldl_addKey q (mem_addKey.2 (.inr rfl)), addKey, if_neg hc, List.idxOf_append_of_notMem hc,
    List.idxOf_append_of_notMem hp]
  simp [length_firstSeen]

/-- **C01**: for any sequence of requests, (1) equal labels get equal numbers and different labels different numbers,
(2) a label gets the number of distinct labels that appeared before it, (3) the numbers in use are `0..k-1`. -/
theorem C01_label_map (ls : List ℤ) :
    (internalLabels ls).length = ls.length ∧
    (∀ i j : ℕ, ∀ a ∈ ls[i]?, ∀ b ∈ ls[j]?, ((internalLabels ls)[i]? = (internalLabels ls)[j]? ↔ a = b)) ∧
    (∀ i : ℕ, ∀ a ∈ ls[i]?, (internalLabels ls)[i]? = some (ls.take (ls.idxOf a)).toFinset.card) ∧
    (internalLabels ls).toFinset = Finset.range ls.toFinset.card := by
  rw [internalLabels_eq]
  refine ⟨by simp, ?_, ?_, ?_⟩
  · intro i j a ha b hb
    rw [Option.mem_def] at ha hb
    rw [List.getElem?_map, List.getElem?_map, ha, hb, Option.map_some, Option.map_some, Option.some_inj]
    exact idxOf_inj (mem_firstSeen.2 (List.mem_of_getElem? ha))
  · intro i a ha
    rw [Option.mem_def] at ha
    rw [List.getElem?_map, ha, Option.map_some, idxOf_firstSeen (List.mem_of_getElem? ha)]
  · ext n
    rw [List.mem_toFinset, List.mem_map, Finset.mem_range, ← length_firstSeen]
    constructor
    · rintro ⟨a, ha, rfl⟩
      exact List.idxOf_lt_length_of_mem (mem_firstSeen.2 ha)
    · intro hn
      exact ⟨(firstSeen ls)[n], mem_firstSeen.1 (List.getElem_mem hn), (firstSeen_nodup ls).idxOf_getElem n hn⟩

example : internalLabels [7, -2, 7, 9, -2, 0] = [0, 1, 0, 2, 1, 3] := by decide

/-! ## C02 -/

/-- Rename the labels of a label map. -/
def LabelMap.rename (f : ℤ → ℤ) (m : LabelMap) : LabelMap := m.map fun p => (f p.1, p.2)

theorem lookup_rename {f : ℤ → ℤ} (hf : Function.Injective f) (m : LabelMap) (c : ℤ) :
    List.lookup (f c) (m.rename f) = List.lookup c m := by
  induction m with
  | nil => rfl
  | cons p m ih =>
    rw [LabelMap.rename, List.map_cons, List.lookup_cons, List.lookup_cons]
    by_cases h : c = p.1
    · simp [h]
    · have h1 : (c == p.1) = false := by simpa using h
      have h2 : (f c == f p.1) = false := by simpa using fun e => h (hf e)
      rw [h1, h2]; exact ih

theorem getInternalLabel_rename {f : ℤ → ℤ} (hf : Function.Injective f) (m : LabelMap) (c : ℤ) :
    (m.rename f).getInternalLabel (f c) = ((m.getInternalLabel c).1, (m.getInternalLabel c).2.rename f) := by
  unfold LabelMap.getInternalLabel
  rw [lookup_rename hf]
  cases List.lookup c m with
  | some i => rfl
  | none => simp [LabelMap.rename]

/-- Rename the labels of an object's label map. -/
def Obj.rename {F : Type} (f : ℤ → ℤ) (o : Obj F) : Obj F := ⟨o.labelMap.rename f, o.core⟩

theorem onCore_rename {F α : Type} (f : ℤ → ℤ) (x : Py (Core F) α) (o : Obj F) :
    onCore x (o.rename f) = (onCore x o).mapState (Obj.rename f) := by
  unfold onCore Obj.rename
  cases x o.core <;> rfl

theorem getCvi_rename {F : Type} (M : Module F) {f : ℤ → ℤ} (hf : Function.Injective f) (x : Vec F) (c : ℤ) (o : Obj F) :
    getCvi M (.d1 x) (.int (f c)) (o.rename f) = (getCvi M (.d1 x) (.int c) o).mapState (Obj.rename f) := by
  have hu : M.update (.d1 x) (.int (f c)) (o.rename f) = (M.update (.d1 x) (.int c) o).mapState (Obj.rename f) := by
    simp only [Module.update, Module.paramInc]
    split
    · rfl
    · rw [show (o.rename f).labelMap = o.labelMap.rename f from rfl, getInternalLabel_rename hf]
      exact onCore_rename f _ ⟨(o.labelMap.getInternalLabel c).2, o.core⟩
  simp only [getCvi, Py.bind_apply, hu]
  cases M.update (.d1 x) (.int c) o with
  | err e s => rfl
  | ok a s =>
    simp only [Res.mapState, Res.bind_ok, onCore_rename]
    cases onCore M.evaluate s with
    | err e s => rfl
    | ok a s => rfl

/-- What a caller sees who presents samples one by one, catching exceptions. -/
def outcomes {F : Type} (M : Module F) : List (Vec F × ℤ) → Obj F → List (Except PyErr F)
  | [], _ => []
  | p :: l, o =>
    (getCvi M (.d1 p.1) (.int p.2) o).val :: outcomes M l (getCvi M (.d1 p.1) (.int p.2) o).state

/-- **C02**: renaming the labels through an injective function changes nothing the caller sees: neither values nor
exceptions, for samples of any length and content, in every arithmetic. -/
theorem C02_label_renaming {F : Type} (M : Module F) (f : ℤ → ℤ) (hf : Function.Injective f) (l : List (Vec F × ℤ)) :
    outcomes M (l.map fun p => (p.1, f p.2)) M.fresh = outcomes M l M.fresh := by
  suffices h : ∀ o, outcomes M (l.map fun p => (p.1, f p.2)) (o.rename f) = outcomes M l o from h M.fresh
  induction l with
  | nil => intro o; rfl
  | cons p l ih =>
    intro o
    rw [List.map_cons, outcomes, outcomes, getCvi_rename M hf]
    have hv : ∀ r : Res (Obj F) F, (r.mapState (Obj.rename f)).val = r.val ∧
        (r.mapState (Obj.rename f)).state = r.state.rename f := by
      intro r; cases r <;> exact ⟨rfl, rfl⟩
    rw [(hv _).1, (hv _).2, ih]

example (l : List (Vec × ℤ)) : outcomes (Index.mod .cSIL) (l.map fun p => (p.1, 3 * p.2 - 7)) (Index.mod .cSIL).fresh
    = outcomes (Index.mod .cSIL) l (Index.mod .cSIL).fresh :=
  C02_label_renaming _ (fun c => 3 * c - 7) (fun a b h => by simpa using h) l

end Verif

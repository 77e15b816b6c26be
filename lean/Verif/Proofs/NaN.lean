import Verif.Model.All
import Mathlib.Data.List.Forall2

/-!
# Replacing numbers by NaN

`x ⊑ y`: `y` is `x` with some numbers replaced by NaN.  Every numpy primitive used by the code respects this relation, hence so do the
methods: a NaN in the input can only turn results into NaN.
-/

namespace Verif
open Py

/-- `x ⊑ y`: `y` arises from `x` by replacing numbers with NaN. -/
class Ref (α : Type) where
  /-- The relation. -/
  ref : α → α → Prop

@[inherit_doc] infix:50 " ⊑ " => Ref.ref

instance : Ref XR := ⟨fun x y => y = .nan ∨ y = x⟩
instance : Ref ℕ := ⟨Eq⟩
instance : Ref Bool := ⟨Eq⟩
instance : Ref Unit := ⟨Eq⟩
instance : Ref (ℕ × ℕ) := ⟨Eq⟩
instance {α : Type} [Ref α] : Ref (List α) := ⟨List.Forall₂ Ref.ref⟩
instance {α : Type} [Ref α] : Ref (Option α) := ⟨Option.Rel Ref.ref⟩
instance {α : Type} [Ref α] : Ref (Seq α) := ⟨fun x y => x.isArr = y.isArr ∧ x.items ⊑ y.items⟩
instance : Ref Arr2 := ⟨fun x y => x.cols = y.cols ∧ x.rows ⊑ y.rows⟩
/-- If the first returns, so does the second. -/
instance {α : Type} [Ref α] : Ref (Except PyErr α) := ⟨fun x y => ∀ a, x = .ok a → ∃ b, y = .ok b ∧ a ⊑ b⟩

/-- Objects, attribute by attribute. -/
structure CoreRef (s t : Core) : Prop where
  dim : s.dim = t.dim
  nSamples : s.nSamples = t.nSamples
  n : s.n = t.n
  v : s.v ⊑ t.v
  CP : s.CP ⊑ t.CP
  G : s.G ⊑ t.G
  nClusters : s.nClusters = t.nClusters
  criterion : s.criterion ⊑ t.criterion
  isSetup : s.isSetup = t.isSetup
  mu : s.mu ⊑ t.mu
  SEP : s.SEP ⊑ t.SEP
  BGSS : s.BGSS ⊑ t.BGSS
  WGSS : s.WGSS ⊑ t.WGSS
  D : s.D ⊑ t.D
  R : s.R ⊑ t.R
  Sv : s.Sv ⊑ t.Sv
  Sm : s.Sm ⊑ t.Sm
  silCoefs : s.silCoefs ⊑ t.silCoefs
  inter : s.inter ⊑ t.inter
  intra : s.intra ⊑ t.intra
  vBar : s.vBar ⊑ t.vBar
  betaT : s.betaT ⊑ t.betaT
  PSi : s.PSi ⊑ t.PSi
  sigma : s.sigma ⊑ t.sigma
  sigmaShape : s.sigmaShape = t.sigmaShape
  deltaTerm : s.deltaTerm ⊑ t.deltaTerm
  constant : s.constant ⊑ t.constant

instance : Ref Core := ⟨CoreRef⟩

/-- If the first method returns on an object, the second returns on every object related to it. -/
instance {α : Type} [Ref α] : Ref (Py Core α) :=
  ⟨fun x y => ∀ s t, s ⊑ t → ∀ a s', x s = .ok a s' → ∃ b t', y t = .ok b t' ∧ a ⊑ b ∧ s' ⊑ t'⟩

/-! ## Reflexivity -/

theorem xr_refl (x : XR) : x ⊑ x := .inr rfl
theorem list_refl {α : Type} [Ref α] (h : ∀ a : α, a ⊑ a) (l : List α) : l ⊑ l := List.forall₂_same.2 fun a _ => h a
theorem vec_refl (v : Vec) : v ⊑ v := list_refl xr_refl v
theorem arr_refl (a : Arr2) : a ⊑ a := ⟨rfl, list_refl vec_refl _⟩
theorem seq_refl (a : Seq XR) : a ⊑ a := ⟨rfl, vec_refl _⟩
theorem core_refl (s : Core) : s ⊑ s := by
  have h : ∀ {α : Type} [Ref α], (∀ a : α, a ⊑ a) → ∀ o : Option α, o ⊑ o := by
    intro α _ h o
    cases o with
    | none => exact .none
    | some a => exact .some (h a)
  exact ⟨rfl, rfl, rfl, arr_refl _, h seq_refl _, h arr_refl _, rfl, xr_refl _, rfl, vec_refl _, vec_refl _, xr_refl _, xr_refl _,
    arr_refl _, arr_refl _, seq_refl _, arr_refl _, vec_refl _, xr_refl _, xr_refl _, vec_refl _, xr_refl _, vec_refl _,
    list_refl arr_refl _, rfl, arr_refl _, xr_refl _⟩

/-! ## Numbers -/

/-- Both arguments strict in NaN. -/
theorem strict₂ {f : XR → XR → XR} (h1 : ∀ a, f .nan a = .nan) (h2 : ∀ a, f a .nan = .nan) {a b a' b' : XR}
    (ha : a ⊑ a') (hb : b ⊑ b') : f a b ⊑ f a' b' := by
  rcases ha with rfl | rfl
  · exact .inl (h1 _)
  · rcases hb with rfl | rfl
    · exact .inl (h2 _)
    · exact .inr rfl

theorem strict₁ {f : XR → XR} (h1 : f .nan = .nan) {a a' : XR} (ha : a ⊑ a') : f a ⊑ f a' := by
  rcases ha with rfl | rfl
  · exact .inl h1
  · exact .inr rfl

variable {a b a' b' : XR}
theorem add_ref (ha : a ⊑ a') (hb : b ⊑ b') : a + b ⊑ a' + b' := strict₂ XR.nan_add XR.add_nan ha hb
theorem sub_ref (ha : a ⊑ a') (hb : b ⊑ b') : a - b ⊑ a' - b' := strict₂ XR.nan_sub XR.sub_nan ha hb
theorem mul_ref (ha : a ⊑ a') (hb : b ⊑ b') : a * b ⊑ a' * b' := strict₂ XR.nan_mul XR.mul_nan ha hb
theorem div_ref (ha : a ⊑ a') (hb : b ⊑ b') : a / b ⊑ a' / b' := strict₂ XR.nan_div XR.div_nan ha hb
theorem min_ref (ha : a ⊑ a') (hb : b ⊑ b') : XR.min a b ⊑ XR.min a' b' := strict₂ XR.nan_min XR.min_nan ha hb
theorem max_ref (ha : a ⊑ a') (hb : b ⊑ b') : XR.max a b ⊑ XR.max a' b' := strict₂ XR.nan_max XR.max_nan ha hb
theorem neg_ref (ha : a ⊑ a') : -a ⊑ -a' := strict₁ (f := fun x => -x) XR.neg_nan ha
theorem exp_ref (ha : a ⊑ a') : XR.exp a ⊑ XR.exp a' := strict₁ XR.exp_nan ha
theorem sqrt_ref (ha : a ⊑ a') : XR.sqrt a ⊑ XR.sqrt a' := strict₁ XR.sqrt_nan ha
theorem sq_ref (ha : a ⊑ a') : XR.sq a ⊑ XR.sq a' := strict₁ XR.sq_nan ha

/-! ## Lists -/

section
variable {α β γ : Type} [Ref α] [Ref β] [Ref γ]

theorem length_ref {l l' : List α} (h : l ⊑ l') : l.length = l'.length := List.Forall₂.length_eq h

theorem nil_ref : ([] : List α) ⊑ [] := .nil
theorem cons_ref {a a' : α} {l l' : List α} (h : a ⊑ a') (hl : l ⊑ l') : (a :: l) ⊑ (a' :: l') := .cons h hl

theorem map_ref {f g : α → β} {l l' : List α} (hl : l ⊑ l') (h : ∀ a b, a ⊑ b → f a ⊑ g b) : l.map f ⊑ l'.map g := by
  induction hl with
  | nil => exact .nil
  | cons ha _ ih => exact .cons (h _ _ ha) ih

/-- The same list of indices. -/
theorem map_same {ι : Type} {f g : ι → β} {l : List ι} (h : ∀ i, f i ⊑ g i) : l.map f ⊑ l.map g := by
  induction l with
  | nil => exact .nil
  | cons i l ih => exact .cons (h i) ih

theorem zipWith_ref {f g : α → β → γ} {l l' : List α} {m m' : List β} (hl : l ⊑ l') (hm : m ⊑ m')
    (h : ∀ a a' b b', a ⊑ a' → b ⊑ b' → f a b ⊑ g a' b') : List.zipWith f l m ⊑ List.zipWith g l' m' := by
  induction hl generalizing m m' with
  | nil => exact .nil
  | cons ha _ ih =>
    cases hm with
    | nil => exact .nil
    | cons hb hm => exact .cons (h _ _ _ _ ha hb) (ih hm)

theorem append_ref {l l' m m' : List α} (hl : l ⊑ l') (hm : m ⊑ m') : l ++ m ⊑ l' ++ m' := List.rel_append hl hm

theorem replicate_ref {a a' : α} (n : ℕ) (h : a ⊑ a') : List.replicate n a ⊑ List.replicate n a' := by
  induction n with
  | zero => exact .nil
  | succ n ih => exact .cons h ih

theorem headD_ref {l l' : List α} {a a' : α} (hl : l ⊑ l') (h : a ⊑ a') : l.headD a ⊑ l'.headD a' := by
  cases hl with
  | nil => exact h
  | cons hb _ => exact hb

theorem getD_ref {l l' : List α} {a a' : α} (hl : l ⊑ l') (h : a ⊑ a') (i : ℕ) : l.getD i a ⊑ l'.getD i a' := by
  induction hl generalizing i with
  | nil => simpa using h
  | cons hb _ ih =>
    cases i with
    | zero => simpa using hb
    | succ i => simpa using ih i

theorem set_ref {l l' : List α} {a a' : α} (hl : l ⊑ l') (h : a ⊑ a') (i : ℕ) : l.set i a ⊑ l'.set i a' := by
  induction hl generalizing i with
  | nil => exact .nil
  | cons hb hl ih =>
    cases i with
    | zero => exact .cons h hl
    | succ i => exact .cons hb (ih i)

theorem eraseIdx_ref {l l' : List α} (hl : l ⊑ l') (i : ℕ) : l.eraseIdx i ⊑ l'.eraseIdx i := by
  induction hl generalizing i with
  | nil => exact .nil
  | cons hb hl ih =>
    cases i with
    | zero => exact hl
    | succ i => exact .cons hb (ih i)

theorem getElem?_ref {l l' : List α} (hl : l ⊑ l') (i : ℕ) : l[i]? ⊑ l'[i]? := by
  induction hl generalizing i with
  | nil => exact .none
  | cons hb hl ih =>
    cases i with
    | zero => exact .some hb
    | succ i => simpa using ih i

end

theorem sum_ref {l l' : Vec} (h : l ⊑ l') : l.sum ⊑ l'.sum := by
  induction h with
  | nil => exact xr_refl _
  | cons ha _ ih => simpa using add_ref ha ih

theorem foldl_ref {f : XR → XR → XR} (hf : ∀ {a b a' b' : XR}, a ⊑ a' → b ⊑ b' → f a b ⊑ f a' b') {l l' : Vec} (h : l ⊑ l') :
    ∀ {a a' : XR}, a ⊑ a' → l.foldl f a ⊑ l'.foldl f a' := by
  induction h with
  | nil => exact fun h => h
  | cons hb _ ih => exact fun h => ih (hf h hb)

/-! ## Computations that may raise -/

section
variable {α β : Type} [Ref α] [Ref β]

theorem ok_ref {a b : α} (h : a ⊑ b) : (Except.ok a : Except PyErr α) ⊑ Except.ok b := by
  intro x hx
  cases hx
  exact ⟨b, rfl, h⟩

theorem pure_ref {a b : α} (h : a ⊑ b) : (pure a : Except PyErr α) ⊑ pure b := ok_ref h

theorem error_ref (e : PyErr) (y : Except PyErr α) : (Except.error e : Except PyErr α) ⊑ y := nofun

theorem bind_ref {x y : Except PyErr α} {f g : α → Except PyErr β} (h : x ⊑ y) (hf : ∀ a b, a ⊑ b → f a ⊑ g b) :
    (x >>= f) ⊑ (y >>= g) := by
  intro c hc
  cases x with
  | error e => simp at hc
  | ok a =>
    obtain ⟨b, rfl, hab⟩ := h a rfl
    exact hf a b hab c hc

theorem ite_ref {c c' : Prop} [Decidable c] [Decidable c'] {x y x' y' : α} (hc : c ↔ c') (hx : c → x ⊑ x') (hy : ¬ c → y ⊑ y') :
    (if c then x else y) ⊑ (if c' then x' else y') := by
  by_cases h : c
  · rw [if_pos h, if_pos (hc.1 h)]; exact hx h
  · rw [if_neg h, if_neg fun h' => h (hc.2 h')]; exact hy h

theorem mapE_ref {f g : α → Except PyErr β} {l l' : List α} (hl : l ⊑ l') (h : ∀ a b, a ⊑ b → f a ⊑ g b) :
    mapE f l ⊑ mapE g l' := by
  induction hl with
  | nil => exact ok_ref .nil
  | cons ha _ ih => exact bind_ref (h _ _ ha) fun _ _ hb => bind_ref ih fun _ _ hbs => pure_ref (.cons hb hbs)

theorem mapE_same {ι : Type} {f g : ι → Except PyErr β} {l : List ι} (h : ∀ i, f i ⊑ g i) : mapE f l ⊑ mapE g l := by
  induction l with
  | nil => exact ok_ref .nil
  | cons i l ih => exact bind_ref (h i) fun _ _ hb => bind_ref ih fun _ _ hbs => pure_ref (.cons hb hbs)

/-- `x[i]` or IndexError. -/
theorem index_ref {o o' : Option α} {e : PyErr} : o ⊑ o' →
    (match o with | some x => Except.ok x | none => Except.error e) ⊑
      (match o' with | some x => Except.ok x | none => Except.error e) := by
  intro h
  cases h with
  | none => exact error_ref _ _
  | some h => exact ok_ref h

theorem attr_ref {o o' : Option α} (h : o ⊑ o') : attr o ⊑ attr o' := by
  cases h with
  | none => exact error_ref _ _
  | some h => exact ok_ref h

end

/-! ## 1-D arrays -/

section
variable {v w v' w' : Vec}

theorem bin_ref {f : XR → XR → XR} (hf : ∀ {a b a' b' : XR}, a ⊑ a' → b ⊑ b' → f a b ⊑ f a' b') (hv : v ⊑ v') (hw : w ⊑ w') :
    Vec.bin f v w ⊑ Vec.bin f v' w' := by
  have e1 := length_ref hv
  have e2 := length_ref hw
  unfold Vec.bin
  refine ite_ref (by rw [e1, e2]) (fun _ => ok_ref (zipWith_ref hv hw fun _ _ _ _ h1 h2 => hf h1 h2)) fun _ =>
    ite_ref (by rw [e1]) (fun _ => ok_ref (map_ref hw fun _ _ h => hf (headD_ref hv (xr_refl _)) h)) fun _ =>
    ite_ref (by rw [e2]) (fun _ => ok_ref (map_ref hv fun _ _ h => hf h (headD_ref hw (xr_refl _)))) fun _ => error_ref _ _

theorem vadd_ref (hv : v ⊑ v') (hw : w ⊑ w') : Vec.add v w ⊑ Vec.add v' w' := bin_ref add_ref hv hw
theorem vsub_ref (hv : v ⊑ v') (hw : w ⊑ w') : Vec.sub v w ⊑ Vec.sub v' w' := bin_ref sub_ref hv hw
theorem vsmul_ref {c c' : XR} (hc : c ⊑ c') (hv : v ⊑ v') : Vec.smul c v ⊑ Vec.smul c' v' := map_ref hv fun _ _ h => mul_ref hc h
theorem inner_ref (hv : v ⊑ v') (hw : w ⊑ w') : Vec.inner v w ⊑ Vec.inner v' w' := by
  unfold Vec.inner
  exact ite_ref (by rw [length_ref hv, length_ref hw])
    (fun _ => ok_ref (sum_ref (zipWith_ref hv hw fun _ _ _ _ h1 h2 => mul_ref h1 h2))) fun _ => error_ref _ _
theorem sumSq_ref (hv : v ⊑ v') : Vec.sumSq v ⊑ Vec.sumSq v' := sum_ref (map_ref hv fun _ _ h => sq_ref h)
theorem sqDist_ref (hv : v ⊑ v') (hw : w ⊑ w') : Vec.sqDist v w ⊑ Vec.sqDist v' w' :=
  bind_ref (vsub_ref hv hw) fun _ _ h => pure_ref (sumSq_ref h)
theorem amin_ref (hv : v ⊑ v') : Vec.amin v ⊑ Vec.amin v' := by
  cases hv with
  | nil => exact error_ref _ _
  | cons ha hl => exact ok_ref (foldl_ref min_ref hl ha)
theorem amax_ref (hv : v ⊑ v') : Vec.amax v ⊑ Vec.amax v' := by
  cases hv with
  | nil => exact error_ref _ _
  | cons ha hl => exact ok_ref (foldl_ref max_ref hl ha)
theorem delete_ref (hv : v ⊑ v') (i : ℕ) : Vec.delete v i ⊑ Vec.delete v' i := by
  unfold Vec.delete
  exact ite_ref (by rw [length_ref hv]) (fun _ => ok_ref (eraseIdx_ref hv i)) fun _ => error_ref _ _
theorem vbroadcast_ref (hv : v ⊑ v') {n n' : ℕ} (hn : n = n') : Vec.broadcastTo n v ⊑ Vec.broadcastTo n' v' := by
  subst hn
  unfold Vec.broadcastTo
  exact ite_ref (by rw [length_ref hv]) (fun _ => ok_ref hv) fun _ => ite_ref (by rw [length_ref hv])
    (fun _ => ok_ref (replicate_ref n (headD_ref hv (xr_refl _)))) fun _ => error_ref _ _
theorem zeros_ref {n n' : ℕ} (h : n = n') : (Vec.zeros n : Vec) ⊑ Vec.zeros n' := h ▸ vec_refl _

end

/-! ## 2-D arrays -/

section
variable {A B A' B' : Arr2} {v v' : Vec}

theorem arr_mk {c c' : ℕ} {r r' : List Vec} (hc : c = c') (hr : r ⊑ r') : Arr2.mk c r ⊑ Arr2.mk c' r' := ⟨hc, hr⟩
theorem rows_length (h : A ⊑ A') : A.rows.length = A'.rows.length := length_ref h.2
theorem azeros_ref {r r' c c' : ℕ} (hr : r = r') (hc : c = c') : (Arr2.zeros r c : Arr2) ⊑ Arr2.zeros r' c' := by subst hr hc; exact arr_refl _
theorem row_ref (h : A ⊑ A') (i : ℕ) : A.row i ⊑ A'.row i := by
  unfold Arr2.row
  have := getElem?_ref h.2 i
  revert this
  generalize A.rows[i]? = o, A'.rows[i]? = o'
  rintro (h | _)
  · exact ok_ref h
  · exact error_ref _ _
theorem entry_ref {r r' : Vec} (h : r ⊑ r') (j : ℕ) :
    (match r[j]? with | some x => Except.ok x | none => Except.error PyErr.indexError) ⊑
      (match r'[j]? with | some x => Except.ok x | none => Except.error PyErr.indexError : Except PyErr XR) := by
  have := getElem?_ref h j
  revert this
  generalize r[j]? = o, r'[j]? = o'
  rintro (h | _)
  · exact ok_ref h
  · exact error_ref _ _
theorem get_ref (h : A ⊑ A') (i j : ℕ) : A.get i j ⊑ A'.get i j := by
  unfold Arr2.get
  have := getElem?_ref h.2 i
  cases hA : A.rows[i]? with
  | none => exact error_ref _ _
  | some r =>
    cases hA' : A'.rows[i]? with
    | none => rw [hA, hA'] at this; cases this
    | some r' =>
      rw [hA, hA'] at this
      cases this with
      | some hr =>
        have e := getElem?_ref hr j
        dsimp only
        revert e
        generalize r[j]? = o, r'[j]? = o'
        rintro (h | _)
        · exact ok_ref h
        · exact error_ref _ _
theorem col_ref (h : A ⊑ A') (j : ℕ) : A.col j ⊑ A'.col j := by
  unfold Arr2.col
  refine ite_ref (by rw [h.1]) (fun _ => mapE_ref h.2 fun r r' hr => ?_) fun _ => error_ref _ _
  have e := getElem?_ref hr j
  revert e
  generalize r[j]? = o, r'[j]? = o'
  rintro (h | _)
  · exact ok_ref h
  · exact error_ref _ _
theorem setRow_ref (h : A ⊑ A') (hv : v ⊑ v') (i : ℕ) : A.setRow i v ⊑ A'.setRow i v' := by
  unfold Arr2.setRow
  exact ite_ref (by rw [rows_length h]) (fun _ => bind_ref (vbroadcast_ref hv h.1) fun _ _ hw =>
    pure_ref (arr_mk h.1 (set_ref h.2 hw i))) fun _ => error_ref _ _
theorem setCol_ref (h : A ⊑ A') (hv : v ⊑ v') (i : ℕ) : A.setCol i v ⊑ A'.setCol i v' := by
  unfold Arr2.setCol
  exact ite_ref (by rw [h.1]) (fun _ => bind_ref (vbroadcast_ref hv (rows_length h)) fun _ _ hw =>
    pure_ref (arr_mk h.1 (zipWith_ref h.2 hw fun _ _ _ _ hr hx => set_ref hr hx i))) fun _ => error_ref _ _
theorem vstack_ref (h : A ⊑ A') (hv : v ⊑ v') : A.vstack v ⊑ A'.vstack v' := by
  unfold Arr2.vstack
  exact ite_ref (by rw [h.1, length_ref hv]) (fun _ => ok_ref (arr_mk h.1 (append_ref h.2 (cons_ref hv nil_ref)))) fun _ =>
    error_ref _ _
theorem abroadcast_ref (h : A ⊑ A') {r r' c c' : ℕ} (hr : r = r') (hc : c = c') :
    Arr2.broadcastTo r c A ⊑ Arr2.broadcastTo r' c' A' := by
  subst hr hc
  unfold Arr2.broadcastTo
  refine bind_ref (ite_ref (by rw [rows_length h]) (fun _ => ok_ref h.2) fun _ => ite_ref (by rw [rows_length h])
    (fun _ => ok_ref (replicate_ref r (headD_ref h.2 nil_ref))) fun _ => error_ref _ _) fun _ _ hrs => ?_
  exact ite_ref (by rw [h.1]) (fun _ => pure_ref (arr_mk rfl hrs)) fun _ => ite_ref (by rw [h.1])
    (fun _ => pure_ref (arr_mk rfl (map_ref hrs fun _ _ hx => replicate_ref c (headD_ref hx (xr_refl _))))) fun _ => error_ref _ _
theorem abin_ref {f : XR → XR → XR} (hf : ∀ {a b a' b' : XR}, a ⊑ a' → b ⊑ b' → f a b ⊑ f a' b') (hA : A ⊑ A') (hB : B ⊑ B') :
    Arr2.bin f A B ⊑ Arr2.bin f A' B' := by
  unfold Arr2.bin
  have hr : (if A.rows.length = 1 then B.rows.length else A.rows.length) =
      if A'.rows.length = 1 then B'.rows.length else A'.rows.length := by rw [rows_length hA, rows_length hB]
  have hc : (if A.cols = 1 then B.cols else A.cols) = if A'.cols = 1 then B'.cols else A'.cols := by rw [hA.1, hB.1]
  exact bind_ref (abroadcast_ref hA hr hc) fun _ _ h1 => bind_ref (abroadcast_ref hB hr hc) fun _ _ h2 =>
    pure_ref (arr_mk hc (zipWith_ref h1.2 h2.2 fun _ _ _ _ hx hy => zipWith_ref hx hy fun _ _ _ _ ha hb => hf ha hb))
theorem aadd_ref (hA : A ⊑ A') (hB : B ⊑ B') : Arr2.add A B ⊑ Arr2.add A' B' := abin_ref add_ref hA hB
theorem asub_ref (hA : A ⊑ A') (hB : B ⊑ B') : Arr2.sub A B ⊑ Arr2.sub A' B' := abin_ref sub_ref hA hB
theorem asmul_ref {c c' : XR} (hc : c ⊑ c') (hA : A ⊑ A') : Arr2.smul c A ⊑ Arr2.smul c' A' :=
  arr_mk hA.1 (map_ref hA.2 fun _ _ h => vsmul_ref hc h)
theorem transpose_ref (h : A ⊑ A') : A.transpose ⊑ A'.transpose := by
  unfold Arr2.transpose
  rw [h.1]
  exact arr_mk (rows_length h) (map_same fun j => map_ref h.2 fun _ _ hr => getD_ref hr (xr_refl _) j)
theorem outer_ref {w w' : Vec} (hv : v ⊑ v') (hw : w ⊑ w') : Arr2.outer v w ⊑ Arr2.outer v' w' :=
  arr_mk (length_ref hw) (map_ref hv fun _ _ hx => map_ref hw fun _ _ hy => mul_ref hx hy)
theorem matmul_ref (hA : A ⊑ A') (hB : B ⊑ B') : Arr2.matmul A B ⊑ Arr2.matmul A' B' := by
  unfold Arr2.matmul
  refine ite_ref (by rw [hA.1, rows_length hB]) (fun _ => ok_ref (arr_mk hB.1 (map_ref hA.2 fun _ _ hr => ?_))) fun _ => error_ref _ _
  rw [hB.1]
  exact map_same fun j => sum_ref (zipWith_ref hr (map_ref hB.2 fun _ _ hs => getD_ref hs (xr_refl _) j) fun _ _ _ _ h1 h2 =>
    mul_ref h1 h2)
theorem vecMul_ref (hv : v ⊑ v') (hA : A ⊑ A') : Arr2.vecMul v A ⊑ Arr2.vecMul v' A' := by
  unfold Arr2.vecMul
  refine ite_ref (by rw [length_ref hv, rows_length hA]) (fun _ => ok_ref ?_) fun _ => error_ref _ _
  rw [hA.1]
  exact map_same fun j => sum_ref (zipWith_ref hv (map_ref hA.2 fun _ _ hs => getD_ref hs (xr_refl _) j) fun _ _ _ _ h1 h2 =>
    mul_ref h1 h2)
theorem mean0_ref (h : A ⊑ A') : A.mean0 ⊑ A'.mean0 := by
  unfold Arr2.mean0
  rw [h.1, rows_length h]
  exact map_same fun j => div_ref (sum_ref (map_ref h.2 fun _ _ hr => getD_ref hr (xr_refl _) j)) (xr_refl _)
theorem take_ref (h : A ⊑ A') (l : List ℕ) : A.take l ⊑ A'.take l :=
  bind_ref (mapE_same fun i => row_ref h i) fun _ _ hr => pure_ref (arr_mk h.1 hr)
theorem triu_ref (h : A ⊑ A') {n n' : ℕ} (hn : n = n') : Arr2.triu n A ⊑ Arr2.triu n' A' := by
  subst hn; exact mapE_same fun p => get_ref h p.1 p.2
theorem upperTri_ref {f g : ℕ → ℕ → Except PyErr XR} {n n' : ℕ} (hn : n = n') (h : ∀ i j, f i j ⊑ g i j) :
    Arr2.upperTri n f ⊑ Arr2.upperTri n' g := by
  subst hn
  exact bind_ref (mapE_same fun i => mapE_same fun j => ite_ref Iff.rfl (fun _ => h i j) fun _ => ok_ref (xr_refl _)) fun _ _ hr =>
    pure_ref (arr_mk rfl hr)

/-! ### Determinant and inverse -/

theorem ref_eq_of_fin {x y : XR} (h : x ⊑ y) (hy : y.isFin = true) : x = y := by
  rcases h with rfl | rfl
  · simp [XR.isFin] at hy
  · rfl

theorem list_eq_of_ref {α : Type} [Ref α] {p : α → Bool} (hp : ∀ x y : α, x ⊑ y → p y = true → x = y) {l l' : List α} (h : l ⊑ l')
    (hl : l'.all p = true) : l = l' := by
  induction h with
  | nil => rfl
  | cons ha _ ih =>
    simp only [List.all_cons, Bool.and_eq_true] at hl
    rw [hp _ _ ha hl.1, ih hl.2]

theorem arr_eq_of_allFin (h : A ⊑ A') (hf : A'.allFin = true) : A = A' := by
  obtain ⟨c, r⟩ := A
  obtain ⟨c', r'⟩ := A'
  obtain ⟨rfl, hr⟩ := h
  have : r = r' := list_eq_of_ref (p := fun r : Vec => r.all XR.isFin)
    (fun x y hxy hy => list_eq_of_ref (fun a b hab hb => ref_eq_of_fin hab hb) hxy hy) hr hf
  rw [this]

theorem det_ref (h : A ⊑ A') : A.det ⊑ A'.det := by
  by_cases hf : A'.allFin = true
  · rw [arr_eq_of_allFin h hf]
    intro a ha
    exact ⟨a, ha, xr_refl a⟩
  · unfold Arr2.det
    refine ite_ref (by rw [rows_length h, h.1]) (fun _ => ?_) fun _ => error_ref _ _
    rw [if_neg hf]
    split
    · exact ok_ref (.inl rfl)
    · exact ok_ref (.inl rfl)

/-- Any array of the shape, against an array of NaN. -/
theorem ref_nan {r c : ℕ} {rows : List Vec} (h1 : rows.length = r) (h2 : ∀ x ∈ rows, x.length = c) :
    rows ⊑ List.replicate r (List.replicate c XR.nan) := by
  subst h1
  induction rows with
  | nil => exact .nil
  | cons x rows ih =>
    refine .cons ?_ (ih fun y hy => h2 y (by simp [hy]))
    have := h2 x (by simp)
    subst this
    clear ih h2
    induction x with
    | nil => exact .nil
    | cons a x ih => exact .cons (.inl rfl) ih

theorem inv_ref (h : A ⊑ A') : A.inv ⊑ A'.inv := by
  by_cases hf : A'.allFin = true
  · rw [arr_eq_of_allFin h hf]
    intro a ha
    exact ⟨a, ha, arr_refl a⟩
  · unfold Arr2.inv
    refine ite_ref (by rw [rows_length h, h.1]) (fun _ => ?_) fun _ => error_ref _ _
    rw [if_neg hf]
    split
    · split
      · exact error_ref _ _
      · refine ok_ref (arr_mk h.1 ?_)
        rw [← h.1]
        refine ref_nan (by simp) ?_
        intro x hx
        obtain ⟨i, rfl⟩ := List.mem_ofFn.1 hx
        simp
    · rw [h.1]; exact ok_ref (arr_refl _)

end

/-! ## Python lists -/

section
variable {l l' : Seq XR} {x x' : XR}
theorem sget_ref (h : l ⊑ l') (i : ℕ) : l.get i ⊑ l'.get i := index_ref (getElem?_ref h.2 i)
theorem sset_ref (h : l ⊑ l') (hx : x ⊑ x') (i : ℕ) : l.set i x ⊑ l'.set i x' := by
  unfold Seq.set
  exact ite_ref (by rw [length_ref h.2]) (fun _ => ok_ref ⟨h.1, set_ref h.2 hx i⟩) fun _ => error_ref _ _
theorem sappend_ref (h : l ⊑ l') (hx : x ⊑ x') : l.append x ⊑ l'.append x' := by
  unfold Seq.append
  exact ite_ref (by rw [h.1]) (fun _ => error_ref _ _) fun _ => ok_ref ⟨rfl, append_ref h.2 (cons_ref hx nil_ref)⟩
end

/-! ## Methods -/

section
variable {α β : Type} [Ref α] [Ref β]

theorem py_pure {a b : α} (h : a ⊑ b) : (pure a : Py Core α) ⊑ pure b := by
  intro s t hs c s' hc
  cases hc
  exact ⟨b, t, rfl, h, hs⟩

theorem py_raise (e : PyErr) (y : Py Core α) : (Py.raise e : Py Core α) ⊑ y := by
  intro s t hs c s' hc; cases hc

theorem py_get : (Py.get : Py Core Core) ⊑ Py.get := by
  intro s t hs c s' hc
  cases hc
  exact ⟨t, t, rfl, hs, hs⟩

theorem py_modify {f g : Core → Core} (h : ∀ s t, CoreRef s t → CoreRef (f s) (g t)) : Py.modify f ⊑ Py.modify g := by
  intro s t hs c s' hc
  cases hc
  exact ⟨(), g t, rfl, rfl, h s t hs⟩

theorem py_lift {x y : Except PyErr α} (h : x ⊑ y) : (Py.lift x : Py Core α) ⊑ Py.lift y := by
  intro s t hs c s' hc
  cases x with
  | error e => simp at hc
  | ok a =>
    obtain ⟨b, rfl, hab⟩ := h a rfl
    cases hc
    exact ⟨b, t, rfl, hab, hs⟩

theorem py_bind {x y : Py Core α} {f g : α → Py Core β} (h : x ⊑ y) (hf : ∀ a b, a ⊑ b → f a ⊑ g b) : (x >>= f) ⊑ (y >>= g) := by
  intro s t hs c s' hc
  rw [bind_apply] at hc
  cases hx : x s with
  | err e s1 => rw [hx] at hc; cases hc
  | ok a s1 =>
    rw [hx] at hc
    obtain ⟨b, t1, hy, hab, hst⟩ := h s t hs a s1 hx
    obtain ⟨d, t2, hg, hcd, hst2⟩ := hf a b hab s1 t1 hst c s' hc
    exact ⟨d, t2, by rw [bind_apply, hy]; exact hg, hcd, hst2⟩

omit [Ref β] in
theorem py_lift_same {x : Except PyErr β} {f g : β → Py Core α} (hf : ∀ a, f a ⊑ g a) :
    (Py.lift x >>= f) ⊑ (Py.lift x >>= g) := by
  cases x with
  | error e => intro s t hs c s' hc; cases hc
  | ok a => exact fun s t hs c s' hc => hf a s t hs c s' hc

theorem py_forEach {ι : Type} {l : List ι} {f g : ι → Py Core Unit} (h : ∀ i, f i ⊑ g i) : Py.forEach l f ⊑ Py.forEach l g := by
  induction l with
  | nil => exact py_pure rfl
  | cons i l ih => exact py_bind (h i) fun _ _ _ => ih

end

/-! ## Automation

`ref_one` makes one step; every lemma below about a definition of the model adds a case to it. -/

theorem py_get_bind {α : Type} [Ref α] {f g : Core → Py Core α} (h : ∀ s t, CoreRef s t → f s ⊑ g t) :
    (Py.get >>= f) ⊑ (Py.get >>= g) := py_bind py_get h

theorem fin_ref {a b : ℝ} (h : a = b) : XR.fin a ⊑ XR.fin b := h ▸ xr_refl _
theorem none_refl {α : Type} [Ref α] : (none : Option α) ⊑ none := .none
theorem unit_refl : () ⊑ () := rfl
theorem cast_ref {a b : ℕ} (h : a = b) : (a : ℝ) = b := by rw [h]
theorem some_ref {α : Type} [Ref α] {a b : α} (h : a ⊑ b) : some a ⊑ some b := .some h
theorem items_ref {l l' : Seq XR} (h : l ⊑ l') : l.items ⊑ l'.items := h.2
theorem rows_ref {A A' : Arr2} (h : A ⊑ A') : A.rows ⊑ A'.rows := h.2
theorem bind_same {α ι : Type} [Ref α] {x : Except PyErr ι} {f g : ι → Except PyErr α} (h : ∀ a, f a ⊑ g a) :
    (x >>= f) ⊑ (x >>= g) := by
  cases x with
  | error e => exact error_ref _ _
  | ok a => exact h a
theorem ite_ref' {α : Type} [Ref α] {c : Prop} [Decidable c] {x y x' y' : α} (hx : x ⊑ x') (hy : y ⊑ y') :
    (if c then x else y) ⊑ (if c then x' else y') := ite_ref Iff.rfl (fun _ => hx) fun _ => hy

/-- One step. -/
syntax "ref_one" : tactic

macro_rules | `(tactic| ref_one) => `(tactic| (with_reducible refine map_ref ?_ fun _ _ _ => ?_))
macro_rules | `(tactic| ref_one) => `(tactic| (with_reducible refine map_same fun _ => ?_))
macro_rules | `(tactic| ref_one) => `(tactic| (with_reducible refine mapE_ref ?_ fun _ _ _ => ?_))
macro_rules | `(tactic| ref_one) => `(tactic| (with_reducible refine mapE_same fun _ => ?_))
macro_rules | `(tactic| ref_one) => `(tactic| (with_reducible refine bind_ref ?_ fun _ _ _ => ?_))
macro_rules | `(tactic| ref_one) => `(tactic| (with_reducible refine bind_same fun _ => ?_))
macro_rules | `(tactic| ref_one) => `(tactic| (with_reducible refine py_bind ?_ fun _ _ _ => ?_))
macro_rules | `(tactic| ref_one) => `(tactic| (with_reducible refine py_lift_same fun _ => ?_))
macro_rules | `(tactic| ref_one) => `(tactic| (with_reducible refine py_forEach fun _ => ?_))
macro_rules | `(tactic| ref_one) => `(tactic| (with_reducible refine py_get_bind fun s t h => ?_
                                               try simp only [h.n, h.nClusters, h.dim, h.nSamples, h.sigmaShape,
                                                 length_ref h.SEP, length_ref h.sigma, rows_length h.D]))
macro_rules | `(tactic| ref_one) => `(tactic| (with_reducible apply ite_ref'))
macro_rules | `(tactic| ref_one) => `(tactic| (with_reducible apply py_raise))
macro_rules | `(tactic| ref_one) => `(tactic| (with_reducible apply py_pure))
macro_rules | `(tactic| ref_one) => `(tactic| (with_reducible apply py_lift))
macro_rules | `(tactic| ref_one) => `(tactic| (with_reducible apply pure_ref))
macro_rules | `(tactic| ref_one) => `(tactic| (with_reducible apply ok_ref))
macro_rules | `(tactic| ref_one) => `(tactic| (with_reducible apply error_ref))
macro_rules | `(tactic| ref_one) => `(tactic| (with_reducible apply attr_ref))
macro_rules | `(tactic| ref_one) => `(tactic| (with_reducible apply add_ref))
macro_rules | `(tactic| ref_one) => `(tactic| (with_reducible apply sub_ref))
macro_rules | `(tactic| ref_one) => `(tactic| (with_reducible apply mul_ref))
macro_rules | `(tactic| ref_one) => `(tactic| (with_reducible apply div_ref))
macro_rules | `(tactic| ref_one) => `(tactic| (with_reducible apply neg_ref))
macro_rules | `(tactic| ref_one) => `(tactic| (with_reducible apply max_ref))
macro_rules | `(tactic| ref_one) => `(tactic| (with_reducible apply exp_ref))
macro_rules | `(tactic| ref_one) => `(tactic| (with_reducible apply sqrt_ref))
macro_rules | `(tactic| ref_one) => `(tactic| (with_reducible apply fin_ref))
macro_rules | `(tactic| ref_one) => `(tactic| (with_reducible apply some_ref))
macro_rules | `(tactic| ref_one) => `(tactic| (with_reducible apply items_ref))
macro_rules | `(tactic| ref_one) => `(tactic| (with_reducible apply rows_ref))
macro_rules | `(tactic| ref_one) => `(tactic| (with_reducible apply sum_ref))
macro_rules | `(tactic| ref_one) => `(tactic| (with_reducible apply append_ref))
macro_rules | `(tactic| ref_one) => `(tactic| (with_reducible apply set_ref))
macro_rules | `(tactic| ref_one) => `(tactic| (with_reducible apply cons_ref))
macro_rules | `(tactic| ref_one) => `(tactic| (with_reducible apply vadd_ref))
macro_rules | `(tactic| ref_one) => `(tactic| (with_reducible apply vsub_ref))
macro_rules | `(tactic| ref_one) => `(tactic| (with_reducible apply vsmul_ref))
macro_rules | `(tactic| ref_one) => `(tactic| (with_reducible apply inner_ref))
macro_rules | `(tactic| ref_one) => `(tactic| (with_reducible apply sqDist_ref))
macro_rules | `(tactic| ref_one) => `(tactic| (with_reducible apply amin_ref))
macro_rules | `(tactic| ref_one) => `(tactic| (with_reducible apply amax_ref))
macro_rules | `(tactic| ref_one) => `(tactic| (with_reducible apply delete_ref))
macro_rules | `(tactic| ref_one) => `(tactic| (with_reducible apply row_ref))
macro_rules | `(tactic| ref_one) => `(tactic| (with_reducible apply get_ref))
macro_rules | `(tactic| ref_one) => `(tactic| (with_reducible apply col_ref))
macro_rules | `(tactic| ref_one) => `(tactic| (with_reducible apply setRow_ref))
macro_rules | `(tactic| ref_one) => `(tactic| (with_reducible apply setCol_ref))
macro_rules | `(tactic| ref_one) => `(tactic| (with_reducible apply vstack_ref))
macro_rules | `(tactic| ref_one) => `(tactic| (with_reducible apply abroadcast_ref))
macro_rules | `(tactic| ref_one) => `(tactic| (with_reducible apply aadd_ref))
macro_rules | `(tactic| ref_one) => `(tactic| (with_reducible apply asub_ref))
macro_rules | `(tactic| ref_one) => `(tactic| (with_reducible apply asmul_ref))
macro_rules | `(tactic| ref_one) => `(tactic| (with_reducible apply transpose_ref))
macro_rules | `(tactic| ref_one) => `(tactic| (with_reducible apply outer_ref))
macro_rules | `(tactic| ref_one) => `(tactic| (with_reducible apply matmul_ref))
macro_rules | `(tactic| ref_one) => `(tactic| (with_reducible apply vecMul_ref))
macro_rules | `(tactic| ref_one) => `(tactic| (with_reducible apply mean0_ref))
macro_rules | `(tactic| ref_one) => `(tactic| (with_reducible apply take_ref))
macro_rules | `(tactic| ref_one) => `(tactic| (with_reducible apply triu_ref))
macro_rules | `(tactic| ref_one) => `(tactic| (with_reducible refine upperTri_ref ?_ fun _ _ => ?_))
macro_rules | `(tactic| ref_one) => `(tactic| (with_reducible apply det_ref))
macro_rules | `(tactic| ref_one) => `(tactic| (with_reducible apply inv_ref))
macro_rules | `(tactic| ref_one) => `(tactic| (with_reducible apply sget_ref))
macro_rules | `(tactic| ref_one) => `(tactic| (with_reducible apply sset_ref))
macro_rules | `(tactic| ref_one) => `(tactic| (with_reducible apply sappend_ref))
macro_rules | `(tactic| ref_one) => `(tactic| (with_reducible apply length_ref))
macro_rules | `(tactic| ref_one) => `(tactic| (with_reducible apply rows_length))
macro_rules | `(tactic| ref_one) => `(tactic| (with_reducible exact CoreRef.v (by assumption)))
macro_rules | `(tactic| ref_one) => `(tactic| (with_reducible exact CoreRef.CP (by assumption)))
macro_rules | `(tactic| ref_one) => `(tactic| (with_reducible exact CoreRef.G (by assumption)))
macro_rules | `(tactic| ref_one) => `(tactic| (with_reducible exact CoreRef.criterion (by assumption)))
macro_rules | `(tactic| ref_one) => `(tactic| (with_reducible exact CoreRef.mu (by assumption)))
macro_rules | `(tactic| ref_one) => `(tactic| (with_reducible exact CoreRef.SEP (by assumption)))
macro_rules | `(tactic| ref_one) => `(tactic| (with_reducible exact CoreRef.D (by assumption)))
macro_rules | `(tactic| ref_one) => `(tactic| (with_reducible exact CoreRef.Sv (by assumption)))
macro_rules | `(tactic| ref_one) => `(tactic| (with_reducible exact CoreRef.Sm (by assumption)))
macro_rules | `(tactic| ref_one) => `(tactic| (with_reducible exact CoreRef.intra (by assumption)))
macro_rules | `(tactic| ref_one) => `(tactic| (with_reducible exact CoreRef.vBar (by assumption)))
macro_rules | `(tactic| ref_one) => `(tactic| (with_reducible exact CoreRef.betaT (by assumption)))
macro_rules | `(tactic| ref_one) => `(tactic| (with_reducible exact CoreRef.sigma (by assumption)))
macro_rules | `(tactic| ref_one) => `(tactic| (with_reducible exact CoreRef.deltaTerm (by assumption)))
macro_rules | `(tactic| ref_one) => `(tactic| (with_reducible exact CoreRef.constant (by assumption)))
macro_rules | `(tactic| ref_one) => `(tactic| (with_reducible exact xr_refl _))
macro_rules | `(tactic| ref_one) => `(tactic| (with_reducible exact vec_refl _))
macro_rules | `(tactic| ref_one) => `(tactic| (with_reducible exact arr_refl _))
macro_rules | `(tactic| ref_one) => `(tactic| (with_reducible exact nil_ref))
macro_rules | `(tactic| ref_one) => `(tactic| (with_reducible exact none_refl))
macro_rules | `(tactic| ref_one) => `(tactic| (with_reducible exact unit_refl))
macro_rules | `(tactic| ref_one) => `(tactic| (with_reducible exact seq_refl _))
macro_rules | `(tactic| ref_one) => `(tactic| (with_reducible apply cast_ref))
macro_rules | `(tactic| ref_one) => `(tactic| (with_reducible rfl))
macro_rules | `(tactic| ref_one) => `(tactic| (with_reducible assumption))

/-- All steps. -/
macro "ref_all" : tactic => `(tactic| repeat' ref_one)

/-- Attribute assignment: the attributes not assigned stay related. -/
macro "ref_set" : tactic => `(tactic|
  (with_reducible refine py_modify fun _ _ h => ?_
   try simp only [h.n, h.nClusters, h.dim, h.nSamples, h.sigmaShape]
   have h' := h
   cases h'
   constructor <;> (try dsimp only) <;> first | with_reducible assumption | with_reducible rfl | skip))

end Verif

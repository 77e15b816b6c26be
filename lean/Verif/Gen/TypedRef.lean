import Verif.Gen.Typed
import Verif.Gen.RefCSIL

/-!
# When nothing wraps around, integers and floats give the same

`toCore` replaces every element of `_CP` by the float; under bounds on the integers each method commutes with it.
-/

namespace Verif.Gen.Typed
open Py

variable {F : Type} [Arith F] [FromInt F] {d : ℕ}

/-- The sum of squares. -/
def normSq (l : List ℤ) : ℤ := (l.map fun z => z ^ 2).sum

/-- On integers up to `B` the arithmetic of floats is exact; `B` fits in 64 bits. -/
structure IntExact (F : Type) [Arith F] [FromInt F] (B : ℤ) (d : ℕ) : Prop where
  lt : B < 2 ^ 63
  two : (Arith.ofNat 2 : F) = Arith.two
  add : ∀ a b : ℤ, 0 ≤ a → 0 ≤ b → a + b ≤ B → (FromInt.ofInt a + FromInt.ofInt b : F) = FromInt.ofInt (a + b)
  mul : ∀ (m : ℕ) (a : ℤ), 0 ≤ a → a ≤ B → (m : ℤ) ≤ B → m * a ≤ B → (Arith.ofNat m * FromInt.ofInt a : F) = FromInt.ofInt (m * a)
  dot : ∀ l : List ℤ, l.length = d → normSq l ≤ B →
    (Arith.dot (l.map FromInt.ofInt) (l.map FromInt.ofInt) : F) = FromInt.ofInt (normSq l)

theorem normSq_nonneg (l : List ℤ) : 0 ≤ normSq l := List.sum_nonneg (by
  intro x hx
  obtain ⟨z, -, rfl⟩ := List.mem_map.mp hx
  exact sq_nonneg z)

theorem zipWith_self (l : List ℤ) : (List.zipWith (· * ·) l l).sum = normSq l := by
  induction l with
  | nil => rfl
  | cons a l ih => simp only [List.zipWith_cons_cons, List.sum_cons, ih, normSq, List.map_cons, sq]

theorem wrap_eq {z : ℤ} (h0 : 0 ≤ z) (h : z < 2 ^ 63) : wrap z = z := by
  have e : ((2 ^ 64 : ℕ) : ℤ) = 2 ^ 64 := by norm_num
  apply Int.bmod_eq_of_le_mul_two <;> rw [e] <;> omega

/-- The float of everything in `_CP`. -/
def toCore (t : TCore F) : Core F := { t.core with CP := some ⟨false, t.CP.map Sc.float⟩ }

/-! ## Stepping through a method -/

section
variable {σ τ α β γ : Type} {φ : σ → τ}

theorem lift_sim {e : Except PyErr α} {e' : Except PyErr β} {f : α → Py σ γ} {g : β → Py τ γ} {t : σ} (h : α → β)
    (he : e' = e.map h) (hf : ∀ a, e = .ok a → (f a t).mapState φ = g (h a) (φ t)) :
    ((lift e >>= f) t).mapState φ = (lift e' >>= g) (φ t) := by
  subst he
  cases e with
  | error x => rfl
  | ok a => exact hf a rfl

theorem lift_same {e : Except PyErr α} {f : α → Py σ γ} {g : α → Py τ γ} {t : σ}
    (hf : ∀ a, e = .ok a → (f a t).mapState φ = g a (φ t)) :
    ((lift e >>= f) t).mapState φ = (lift e >>= g) (φ t) := by
  cases e with
  | error x => rfl
  | ok a => exact hf a rfl

theorem get_sim {f : σ → Py σ γ} {g : τ → Py τ γ} {t : σ} (h : (f t t).mapState φ = g (φ t) (φ t)) :
    ((get >>= f) t).mapState φ = (get >>= g) (φ t) := h

theorem stmt_sim {x : Py σ α} {y : Py τ α} {f : α → Py σ γ} {g : α → Py τ γ} {t : σ} (hx : (x t).mapState φ = y (φ t))
    (hf : ∀ a t', x t = .ok a t' → (f a t').mapState φ = g a (φ t')) :
    ((x >>= f) t).mapState φ = (y >>= g) (φ t) := by
  simp only [bind_apply]
  rw [← hx]
  cases h : x t with
  | ok a t' => exact hf a t' h
  | err e t' => rfl

end

/-- The method neither reads nor assigns `_CP`. -/
def Free {α : Type} (x : Py (Core F) α) : Prop := ∀ (s : Core F) (cp : Option (Seq F)),
  x { s with CP := cp } = (x s).mapState fun s => { s with CP := cp }

omit [Arith F] in
theorem Free.rest {α : Type} {x : Py (Core F) α} (h : Free x) (t : TCore F) :
    (onRest x t).mapState toCore = x (toCore t) := by
  rw [toCore, h, onRest]
  cases x t.core <;> rfl

omit [Arith F] [FromInt F] in
theorem Free.modify {f : Core F → Core F} (h : ∀ s cp, f { s with CP := cp } = { f s with CP := cp }) : Free (Py.modify f) := by
  intro s cp
  exact congrArg (Res.ok ()) (h s cp)

omit [Arith F] [FromInt F] in
theorem free_lift {α β : Type} {e : Except PyErr α} {f : α → Py (Core F) β} (h : ∀ a, Free (f a)) : Free (lift e >>= f) := by
  intro s cp
  cases e with
  | error x => rfl
  | ok a => exact h a s cp

omit [Arith F] [FromInt F] in
theorem Free.bind {α β : Type} {x : Py (Core F) α} {f : α → Py (Core F) β} (hx : Free x) (h : ∀ a, Free (f a)) : Free (x >>= f) := by
  intro s cp
  simp only [bind_apply]
  rw [hx s cp]
  cases x s with
  | err e s' => rfl
  | ok a s' => exact h a s' cp

omit [Arith F] [FromInt F] in
theorem free_incClusters : Free (incClusters (F := F)) := .modify fun _ _ => rfl
omit [Arith F] [FromInt F] in
theorem free_appendN (x : ℕ) : Free (appendN (F := F) x) := fun s cp =>
  (free_lift (e := s.n.append x) (f := fun n => modify fun s => { s with n := n }) fun _ => .modify fun _ _ => rfl) s cp
omit [Arith F] [FromInt F] in
theorem free_setN (i x : ℕ) : Free (setN (F := F) i x) := fun s cp =>
  (free_lift (e := s.n.set i x) (f := fun n => modify fun s => { s with n := n }) fun _ => .modify fun _ _ => rfl) s cp
omit [Arith F] [FromInt F] in
theorem free_vstackV (x : Vec F) : Free (vstackV x) := fun s cp =>
  (free_lift (e := s.v.vstack x) (f := fun v => modify fun s => { s with v := v }) fun _ => .modify fun _ _ => rfl) s cp
omit [FromInt F] in
theorem free_setV (i : ℕ) (x : Vec F) : Free (setV i x) := fun s cp =>
  (free_lift (e := s.v.setRow i x) (f := fun v => modify fun s => { s with v := v }) fun _ => .modify fun _ _ => rfl) s cp
omit [Arith F] [FromInt F] in
theorem free_vstackG (x : Vec F) : Free (vstackG x) := fun s cp =>
  (free_lift (e := attr s.G) (f := fun g => lift (g.vstack x) >>= fun g => modify fun s => { s with G := some g })
    fun _ => free_lift fun _ => .modify fun _ _ => rfl) s cp
omit [FromInt F] in
theorem free_setG (i : ℕ) (x : Vec F) : Free (setG i x) := fun s cp =>
  (free_lift (e := attr s.G) (f := fun g => lift (g.setRow i x) >>= fun g => modify fun s => { s with G := some g })
    fun _ => free_lift fun _ => .modify fun _ _ => rfl) s cp
omit [FromInt F] in
theorem free_setS (i : ℕ) (c r : Vec F) : Free (Verif.CSIL.setS i c r) := fun s cp =>
  (free_lift (e := s.Sm.setRow i c)
    (f := fun S1 => modify (fun s => { s with Sm := S1 }) >>= fun _ => lift (S1.setCol i r) >>= fun S2 => modify fun s => { s with Sm := S2 })
    fun _ => .bind (.modify fun _ _ => rfl) fun _ => free_lift fun _ => .modify fun _ _ => rfl) s cp

omit [FromInt F] in
theorem free_setup (x : Vec F) : Free (setupIfFirst CSIL.setup x) := by
  intro s cp
  simp only [setupIfFirst, bind_apply, get_apply, Res.bind_ok, ite_app]
  by_cases h : s.nSamples = 0
  · rw [if_pos h, if_pos h]; rfl
  · rw [if_neg h, if_neg h]; rfl

omit [FromInt F] in
theorem free_evaluate : Free (CSIL.evaluate (F := F)) := by
  intro s cp
  simp only [CSIL.evaluate, bind_apply, modify_apply, get_apply, Res.bind_ok, ite_app]
  by_cases h : s.nClusters > 1 ∧ Arr2.any s.Sm = true
  · rw [if_pos h, if_pos h]
    exact (free_lift (e := mapE (CSIL.coef s.Sm) (List.range s.nClusters)) fun _ => .modify fun _ _ => rfl)
      { s with silCoefs := Vec.zeros s.nClusters } cp
  · rw [if_neg h, if_neg h]; rfl

/-! ## The numbers -/

/-- A sample of integers has `d` features and is not too long. -/
def Short (d : ℕ) (M : ℤ) : TVec F → Prop
  | .ints l => l.length = d ∧ normSq l ≤ M
  | .flts _ => True

/-- After `K` samples. -/
structure Small (M : ℤ) (K : ℕ) (t : TCore F) : Prop where
  cp : ∀ z : ℤ, Sc.int z ∈ t.CP → 0 ≤ z ∧ z ≤ K * M
  n : ∀ m ∈ t.core.n.items, m ≤ K

section
variable {B M : ℤ} {K : ℕ} (hF : IntExact F B d)
include hF

theorem inner_self {x : TVec F} (hx : Short d M x) (hM : M ≤ B) :
    Vec.inner x.float x.float = (TVec.inner x x).map Sc.float ∧
      ∀ z, TVec.inner x x = .ok (.int z) → 0 ≤ z ∧ z ≤ M := by
  cases x with
  | flts l => simp [TVec.inner, Vec.inner, TVec.float, Sc.float, Except.map]
  | ints l =>
    have h0 := normSq_nonneg l
    obtain ⟨hl, hx⟩ : l.length = d ∧ normSq l ≤ M := hx
    have hB := hF.lt
    have e : TVec.inner (.ints l : TVec F) (.ints l) = .ok (.int (normSq l)) := by
      rw [TVec.inner, if_pos rfl, zipWith_self, wrap_eq h0 (by omega)]
    rw [e]
    refine ⟨?_, ?_⟩
    · simp [Vec.inner, TVec.float, Except.map, Sc.float, hF.dot l hl (hx.trans hM)]
    · intro z hz
      have : normSq l = z := by simpa using hz
      omega

omit hF in
theorem float_add_flt (a : Sc F) (x : F) : a.add (.flt x) = .flt (a.float + x) := by cases a <;> rfl
omit hF in
theorem float_sub_flt (a : Sc F) (x : F) : a.sub (.flt x) = .flt (a.float - x) := by cases a <;> rfl
omit hF in
theorem flt_add (x : F) (a : Sc F) : (Sc.flt x).add a = .flt (x + a.float) := by cases a <;> rfl

/-- `cp + m * a`, with integers that are not too large -/
theorem add_nmul {cp a : Sc F} {m : ℕ} (hcp : ∀ z, cp = .int z → 0 ≤ z ∧ z ≤ K * M) (ha : ∀ z, a = .int z → 0 ≤ z ∧ z ≤ M)
    (hm : m ≤ K) (hM : 1 ≤ M) (hMB : M ≤ B) (hK : 2 * (K * M) ≤ B) :
    (cp.add (a.nmul m)).float = cp.float + Arith.ofNat m * a.float := by
  have hB := hF.lt
  cases a with
  | flt x => rw [Sc.nmul, float_add_flt]; rfl
  | int z =>
    obtain ⟨z0, z1⟩ := ha z rfl
    have hmK : (m : ℤ) ≤ K := by exact_mod_cast hm
    have h1 : (m : ℤ) * z ≤ K * M := mul_le_mul hmK z1 z0 (by positivity)
    have h2 : 0 ≤ (m : ℤ) * z := by positivity
    have h3 : (K : ℤ) ≤ K * M := le_mul_of_one_le_right (by positivity) hM
    have e1 : wrap (m * z) = m * z := wrap_eq h2 (by omega)
    have e2 : (Arith.ofNat m * FromInt.ofInt z : F) = FromInt.ofInt (m * z) := hF.mul m z z0 (by omega) (by omega) (by omega)
    rw [Sc.nmul, e1]
    cases cp with
    | flt x =>
      rw [flt_add]
      simp only [Sc.float, e2]
    | int y =>
      obtain ⟨y0, y1⟩ := hcp y rfl
      show FromInt.ofInt (wrap (y + m * z)) = FromInt.ofInt y + Arith.ofNat m * FromInt.ofInt z
      rw [e2, hF.add y _ y0 h2 (by omega), wrap_eq (by omega) (by omega)]

/-- `cp + a`, with integers that are not too large -/
theorem add_float {cp a : Sc F} (hcp : ∀ z, cp = .int z → 0 ≤ z ∧ z ≤ K * M) (ha : ∀ z, a = .int z → 0 ≤ z ∧ z ≤ M)
    (hK : (K + 1) * M ≤ B) :
    (cp.add a).float = cp.float + a.float ∧ ∀ z, cp.add a = .int z → 0 ≤ z ∧ z ≤ (K + 1) * M := by
  have hB := hF.lt
  cases a with
  | flt x => rw [float_add_flt]; exact ⟨rfl, by simp⟩
  | int z =>
    cases cp with
    | flt x => rw [flt_add]; exact ⟨rfl, by simp⟩
    | int y =>
      obtain ⟨y0, y1⟩ := hcp y rfl
      obtain ⟨z0, z1⟩ := ha z rfl
      have h : y + z ≤ (K + 1) * M := by rw [add_mul]; omega
      have e : wrap (y + z) = y + z := wrap_eq (by omega) (by omega)
      simp only [Sc.add, e, Sc.float, hF.add y z y0 z0 (by omega), true_and, Sc.int.injEq]
      rintro _ rfl
      omega

omit hF [Arith F] in
theorem getCP_map (t : TCore F) (i : ℕ) :
    (⟨false, t.CP.map Sc.float⟩ : Seq F).get i = (getCP t i).map Sc.float := by
  simp only [getCP, Seq.get, List.getElem?_map]
  cases t.CP[i]? <;> rfl

omit hF [Arith F] [FromInt F] in
theorem getCP_mem {t : TCore F} {i : ℕ} {c : Sc F} (h : getCP t i = .ok c) : c ∈ t.CP := by
  simp only [getCP, Seq.get] at h
  split at h
  · rename_i e
    obtain rfl := Except.ok.inj h
    exact List.mem_of_getElem? e
  · simp at h

omit hF [Arith F] [FromInt F] in
theorem get_mem {s : Seq ℕ} {i m : ℕ} (h : s.get i = .ok m) : m ∈ s.items := by
  simp only [Seq.get] at h
  split at h
  · rename_i e
    obtain rfl := Except.ok.inj h
    exact List.mem_of_getElem? e
  · simp at h

omit hF in
theorem inner_flts (a b : Vec F) : TVec.inner (.flts a) (.flts b) = (Vec.inner a b).map Sc.flt := by
  simp only [TVec.inner, TVec.float]
  cases Vec.inner a b <;> rfl

omit hF in
theorem inner_flts_left (a : Vec F) (b : TVec F) : TVec.inner (.flts a) b = (Vec.inner a b.float).map Sc.flt := by
  cases b <;> simp only [TVec.inner, TVec.float] <;> cases Vec.inner a _ <;> rfl

omit hF in
theorem inner_flts_right (a : TVec F) (b : Vec F) : TVec.inner a (.flts b) = (Vec.inner a.float b).map Sc.flt := by
  cases a <;> simp only [TVec.inner, TVec.float] <;> cases Vec.inner _ b <;> rfl

theorem two_mul (x : F) : (Sc.flt x).nmul 2 = .flt (Arith.two * x) := by rw [Sc.nmul, hF.two]

omit hF in
theorem colNew_eq (t : TCore F) (cp : Sc F) (g : TVec F) (cl : ℕ) :
    colNew t cp g cl = CSIL.colNew (toCore t) cp.float g.float cl := by
  simp only [colNew, CSIL.colNew, toCore, inner_flts_right, show ∀ r : Vec F, (TVec.flts r).float = r from fun _ => rfl]
  cases t.core.v.row cl with
  | error e => rfl
  | ok r =>
    simp only [except_bind_ok]
    cases Vec.inner r r with
    | error e => rfl
    | ok a =>
      simp only [Except.map, except_bind_ok]
      cases Vec.inner g.float r with
      | error e => rfl
      | ok b => simp only [except_bind_ok, float_add_flt, float_sub_flt]; rfl

theorem rowEntry_eq {t : TCore F} (ht : Small M K t) (hM : 1 ≤ M) (hK : 2 * (K * M) ≤ B) (hMB : M ≤ B) {x : TVec F} (hx : Short d M x)
    (cl : ℕ) : rowEntry t x cl = CSIL.rowEntry (toCore t) x.float cl := by
  obtain ⟨hxx, hz⟩ := inner_self hF hx hMB
  simp only [rowEntry, CSIL.rowEntry, toCore, attr, except_bind_ok, getCP_map, hxx, inner_flts_left]
  cases hcp : getCP t cl with
  | error e => rfl
  | ok cp =>
    simp only [Except.map, except_bind_ok]
    cases hm : t.core.n.get cl with
    | error e => rfl
    | ok m =>
      simp only [except_bind_ok]
      cases ha : TVec.inner x x with
      | error e => rfl
      | ok a =>
        simp only [except_bind_ok]
        cases hg : t.core.G with
        | none => rfl
        | some g =>
          simp only [except_bind_ok]
          cases g.row cl with
          | error e => rfl
          | ok r =>
            simp only [except_bind_ok]
            cases Vec.inner r x.float with
            | error e => rfl
            | ok b =>
              have h1 := add_nmul hF (cp := cp) (a := a) (m := m) (K := K) (M := M) (fun z e => ht.cp z (e ▸ getCP_mem hcp))
                (fun z e => hz z (e ▸ ha)) (ht.n m (get_mem hm)) hM hMB hK
              simp only [except_bind_ok, two_mul hF, float_sub_flt, Sc.divNat, h1]
              rfl

theorem colOldEntry_eq (cp : Sc F) (n : ℕ) (g : Vec F) (x : TVec F) (v : Vec F) :
    colOldEntry cp n g x v = CSIL.colOldEntry cp.float n g x.float v := by
  simp only [colOldEntry, CSIL.colOldEntry, inner_flts]
  cases Vec.sub x.float v with
  | error e => rfl
  | ok w =>
    simp only [except_bind_ok]
    cases Vec.inner w w with
    | error e => rfl
    | ok a =>
      simp only [Except.map, except_bind_ok]
      cases Vec.inner v v with
      | error e => rfl
      | ok b =>
        simp only [except_bind_ok]
        cases Vec.inner g v with
        | error e => rfl
        | ok c =>
          simp only [except_bind_ok, float_add_flt, Sc.nmul, float_sub_flt, Sc.divNat, hF.two]
          rfl

theorem incNew_eq {t : TCore F} (ht : Small M K t) (hM : 1 ≤ M) (hK : 2 * (K * M) ≤ B) (hMB : M ≤ B) {x : TVec F} (hx : Short d M x)
    (i : ℕ) : (incNew x i t).mapState toCore = CSIL.incNew x.float i (toCore t) := by
  obtain ⟨hxx, -⟩ := inner_self hF hx hMB
  refine lift_sim (t := t) Sc.float hxx fun cp _ => ?_
  have e : CSIL.sNew (toCore t) i x.float cp.float = sNew t i x cp := by
    rw [CSIL.sNew, sNew, show CSIL.colNew (toCore t) cp.float x.float = colNew t cp x from funext fun cl => (colNew_eq t cp x cl).symm,
      show CSIL.rowEntry (toCore t) x.float = rowEntry t x from funext fun cl => (rowEntry_eq hF ht hM hK hMB hx cl).symm]
    rfl
  rw [show CSIL.sNew (toCore t) i x.float cp.float = sNew t i x cp from e]
  refine lift_same fun Sn _ => ?_
  refine stmt_sim (free_incClusters.rest _) fun _ t1 _ => ?_
  refine stmt_sim ((free_appendN _).rest _) fun _ t2 _ => ?_
  refine stmt_sim ?_ fun _ t3 _ => ?_
  · simp [appendCP, toCore, attr, Seq.append, Res.mapState]
  refine stmt_sim ((free_vstackV _).rest _) fun _ t4 _ => ?_
  refine stmt_sim ((free_vstackG _).rest _) fun _ t5 _ => ?_
  exact Free.rest (.modify fun _ _ => rfl) t5

omit hF in
theorem right_ok {σ α γ : Type} {e : Except PyErr α} {g : α → Py σ γ} {s : σ} {r : Res σ γ} {a : α} (he : e = .ok a) (h : r = g a s) :
    r = (lift e >>= g) s := by subst he; exact h

theorem incOld_eq {t : TCore F} (ht : Small M K t) (hM : 1 ≤ M) (hK : 2 * ((K + 1) * M) ≤ B) {x : TVec F} (hx : Short d M x)
    (i : ℕ) : (incOld x i t).mapState toCore = CSIL.incOld x.float i (toCore t) := by
  have hKM : 0 ≤ (K : ℤ) * M := by positivity
  have hK1 : ((K : ℤ) + 1) * M = K * M + M := by ring
  have hMB : M ≤ B := by omega
  obtain ⟨hxx, hz⟩ := inner_self hF hx hMB
  refine lift_same (t := t) fun n _ => ?_
  refine lift_same fun vRow _ => ?_
  refine lift_same fun vNew _ => ?_
  refine right_ok (a := ⟨false, t.CP.map Sc.float⟩) rfl ?_
  refine lift_sim Sc.float (getCP_map t i) fun cp hcp => ?_
  refine lift_sim Sc.float hxx fun xx hxx' => ?_
  refine lift_same fun g _ => ?_
  refine lift_same fun gRow _ => ?_
  refine lift_same fun gN _ => ?_
  rw [← colOldEntry_eq hF]
  refine lift_same fun own _ => ?_
  have e1 : CSIL.colOld (toCore t) i cp.float n gN x.float own = colOld t i cp n gN x own := by
    simp only [CSIL.colOld, colOld, ← colOldEntry_eq hF]; rfl
  have e2 : CSIL.rowOld (toCore t) i vNew own = rowOld t i vNew own := by
    have : CSIL.rowEntry (toCore t) vNew = rowEntry t (.flts vNew) :=
      funext fun cl => (rowEntry_eq hF ht hM (by omega) hMB (x := .flts vNew) trivial cl).symm
    rw [CSIL.rowOld, rowOld, this]
    rfl
  rw [e1]
  refine lift_same fun c _ => ?_
  rw [e2]
  refine lift_same fun r _ => ?_
  refine stmt_sim ((free_setN _ _).rest _) fun _ t1 _ => ?_
  refine stmt_sim ((free_setV _ _).rest _) fun _ t2 _ => ?_
  obtain ⟨e3, -⟩ := add_float hF (cp := cp) (a := xx) (K := K) (M := M) (fun z e => ht.cp z (e ▸ getCP_mem hcp))
    (fun z e => hz z (e ▸ hxx')) (by omega)
  refine stmt_sim ?_ fun _ t3 _ => ?_
  · rw [← e3]
    simp only [setCP, Verif.setCP, bind_apply, get_apply, Res.bind_ok, toCore, attr, lift_ok, Seq.set, List.length_map]
    split
    · simp only [lift_ok, Res.bind_ok, modify_apply, Res.mapState, toCore, List.map_set]
    · rfl
  refine stmt_sim ((free_setG _ _).rest _) fun _ t4 _ => ?_
  exact (free_setS _ _ _).rest t4

theorem incBody_eq {t : TCore F} (ht : Small M K t) (hM : 1 ≤ M) (hK : 2 * ((K + 1) * M) ≤ B) {x : TVec F} (hx : Short d M x)
    (i : ℕ) : (incBody x i t).mapState toCore = CSIL.incBody x.float i (toCore t) := by
  have hKM : 0 ≤ (K : ℤ) * M := by positivity
  have hK1 : ((K : ℤ) + 1) * M = K * M + M := by ring
  refine stmt_sim (t := t) ((free_setup x.float).rest t) fun _ t1 h1 => ?_
  have ht1 : Small M K t1 := by
    have e : t1.CP = t.CP ∧ t1.core.n = t.core.n := by
      simp only [onRest, setupIfFirst, bind_apply, get_apply, Res.bind_ok, ite_app] at h1
      split at h1
      · obtain ⟨-, rfl⟩ := Res.ok.inj h1; exact ⟨rfl, rfl⟩
      · obtain ⟨-, rfl⟩ := Res.ok.inj h1; exact ⟨rfl, rfl⟩
    exact ⟨e.1 ▸ ht.cp, e.2 ▸ ht.n⟩
  refine get_sim ?_
  refine stmt_sim (t := t1) ?_ fun _ t2 _ => ?_
  · simp only [ite_app]
    rw [show (toCore t1).nClusters = t1.core.nClusters from rfl]
    split
    · exact incNew_eq hF ht1 hM (by omega) (by omega) hx i
    · exact incOld_eq hF ht1 hM hK hx i
  · exact Free.rest (.modify fun _ _ => rfl) t2

end

/-! ## The elements of `_CP` -/

omit [Arith F] [FromInt F] in
theorem lift_inv {σ α β : Type} {e : Except PyErr α} {f : α → Py σ β} {t t' : σ} {b : β} (h : (lift e >>= f) t = .ok b t') :
    ∃ a, e = .ok a ∧ f a t = .ok b t' := by
  cases e with
  | error x => cases h
  | ok a => exact ⟨a, rfl, h⟩

omit [Arith F] [FromInt F] in
theorem bind_inv {σ α β : Type} {x : Py σ α} {f : α → Py σ β} {t t' : σ} {b : β} (h : (x >>= f) t = .ok b t') :
    ∃ a t1, x t = .ok a t1 ∧ f a t1 = .ok b t' := by
  simp only [bind_apply] at h
  cases hx : x t with
  | err e s => rw [hx] at h; cases h
  | ok a t1 => rw [hx] at h; exact ⟨a, t1, rfl, h⟩

omit [Arith F] [FromInt F] in
theorem onRest_inv {α : Type} {x : Py (Core F) α} {t t' : TCore F} {a : α} (h : onRest x t = .ok a t') : t'.CP = t.CP := by
  rw [onRest] at h
  cases hx : x t.core with
  | err e s => rw [hx] at h; cases h
  | ok b s =>
    rw [hx] at h
    obtain ⟨-, rfl⟩ := Res.ok.inj h
    rfl

theorem incNew_CP {x : TVec F} {i : ℕ} {t t' : TCore F} (h : incNew x i t = .ok () t') :
    ∃ c, TVec.inner x x = .ok c ∧ t'.CP = t.CP ++ [c] := by
  obtain ⟨t0, _, h0, h⟩ := bind_inv h
  obtain ⟨rfl, rfl⟩ := Res.ok.inj h0
  obtain ⟨c, hc, h⟩ := lift_inv h
  obtain ⟨Sn, -, h⟩ := lift_inv h
  obtain ⟨_, t1, h1, h⟩ := bind_inv h
  obtain ⟨_, t2, h2, h⟩ := bind_inv h
  obtain ⟨_, t3, h3, h⟩ := bind_inv h
  obtain ⟨_, t4, h4, h⟩ := bind_inv h
  obtain ⟨_, t5, h5, h⟩ := bind_inv h
  have e3 : t3.CP = t2.CP ++ [c] := congrArg TCore.CP (Res.ok.inj h3).2.symm
  refine ⟨c, hc, ?_⟩
  rw [onRest_inv h, onRest_inv h5, onRest_inv h4, e3, onRest_inv h2, onRest_inv h1]

theorem incOld_CP {x : TVec F} {i : ℕ} {t t' : TCore F} (h : incOld x i t = .ok () t') :
    ∃ cp c, getCP t i = .ok cp ∧ TVec.inner x x = .ok c ∧ t'.CP = t.CP.set i (cp.add c) := by
  obtain ⟨t0, _, h0, h⟩ := bind_inv h
  obtain ⟨rfl, rfl⟩ := Res.ok.inj h0
  obtain ⟨_, -, h⟩ := lift_inv h
  obtain ⟨_, -, h⟩ := lift_inv h
  obtain ⟨_, -, h⟩ := lift_inv h
  obtain ⟨cp, hcp, h⟩ := lift_inv h
  obtain ⟨c, hc, h⟩ := lift_inv h
  obtain ⟨_, -, h⟩ := lift_inv h
  obtain ⟨_, -, h⟩ := lift_inv h
  obtain ⟨_, -, h⟩ := lift_inv h
  obtain ⟨_, -, h⟩ := lift_inv h
  obtain ⟨_, -, h⟩ := lift_inv h
  obtain ⟨_, -, h⟩ := lift_inv h
  obtain ⟨_, t1, h1, h⟩ := bind_inv h
  obtain ⟨_, t2, h2, h⟩ := bind_inv h
  obtain ⟨_, t3, h3, h⟩ := bind_inv h
  obtain ⟨_, t4, h4, h⟩ := bind_inv h
  refine ⟨cp, c, hcp, hc, ?_⟩
  rw [onRest_inv h, onRest_inv h4]
  obtain ⟨_, _, h30, h3⟩ := bind_inv h3
  obtain ⟨rfl, rfl⟩ := Res.ok.inj h30
  obtain ⟨q, hq, h3⟩ := lift_inv h3
  obtain ⟨-, rfl⟩ := Res.ok.inj h3
  rw [Seq.set] at hq
  split at hq
  · obtain rfl := Except.ok.inj hq
    rw [onRest_inv h2, onRest_inv h1]
  · cases hq

theorem incBody_CP {B M : ℤ} {K : ℕ} (hF : IntExact F B d) {x : TVec F} {i : ℕ} {t t' : TCore F} (h : incBody x i t = .ok () t')
    (hM : 1 ≤ M) (hK : 2 * ((K + 1) * M) ≤ B) (hx : Short d M x) (ht : ∀ z : ℤ, Sc.int z ∈ t.CP → 0 ≤ z ∧ z ≤ K * M) :
    ∀ z : ℤ, Sc.int z ∈ t'.CP → 0 ≤ z ∧ z ≤ (K + 1) * M := by
  have hKM : 0 ≤ (K : ℤ) * M := by positivity
  have hK1 : ((K : ℤ) + 1) * M = K * M + M := by ring
  obtain ⟨-, hz⟩ := inner_self hF hx (show M ≤ B by omega)
  obtain ⟨t0, _, h0, h⟩ := bind_inv h
  obtain ⟨rfl, rfl⟩ := Res.ok.inj h0
  obtain ⟨_, t1, h1, h⟩ := bind_inv h
  obtain ⟨_, _, h0, h⟩ := bind_inv h
  obtain ⟨rfl, rfl⟩ := Res.ok.inj h0
  obtain ⟨_, t2, h2, h⟩ := bind_inv h
  rw [onRest_inv h]
  rw [← onRest_inv h1] at ht
  simp only [ite_app] at h2
  split at h2
  · obtain ⟨c, hc, e⟩ := incNew_CP h2
    rw [e]
    intro z hz'
    rcases List.mem_append.mp hz' with m | m
    · have := ht z m; omega
    · obtain rfl : Sc.int z = c := by simpa using m
      have := hz z hc; omega
  · obtain ⟨cp, c, hcp, hc, e⟩ := incOld_CP h2
    rw [e]
    intro z hz'
    rcases List.mem_or_eq_of_mem_set hz' with m | m
    · have := ht z m; omega
    · exact (add_float hF (cp := cp) (a := c) (K := K) (M := M) (fun z e => ht z (e ▸ getCP_mem hcp))
        (fun z e => hz z (e ▸ hc)) (by omega)).2 z m.symm

/-! ## Whole streams -/

/-- The same stream in floats. -/
def floats (T : List (TVec F × ℤ)) : Samples F := T.map fun p => (p.1.float, p.2)

def toObj (o : TObj F) : Obj F := ⟨o.labelMap, toCore o.core⟩

theorem getCvi_eq {B M : ℤ} {K : ℕ} (hF : IntExact F B d) {o : TObj F} (ht : Small M K o.core) (hM : 1 ≤ M) (hK : 2 * ((K + 1) * M) ≤ B)
    {x : TVec F} (hx : Short d M x) (c : ℤ) :
    (getCvi x c o).mapState toObj = Verif.getCvi CSILmod (.d1 x.float) (.int c) (toObj o) := by
  have e := incBody_eq hF ht hM hK hx (o.labelMap.getInternalLabel c).1
  simp only [Verif.getCvi, Module.update, Module.paramInc, getCvi, bind_apply, toObj, onCore, CSILmod, if_neg Bool.false_ne_true]
  rw [← e]
  cases incBody x (o.labelMap.getInternalLabel c).1 o.core with
  | err e t => rfl
  | ok a t =>
    have e2 := free_evaluate.rest t
    simp only [Res.mapState, Res.bind_ok]
    rw [← e2]
    cases onRest CSIL.evaluate t <;> rfl

omit [FromInt F] in
theorem sil_n_le (S : Samples F) (c : ℤ) (hc : c ∈ order S) : (sil S c).n ≤ S.length := by
  have h : ∀ l : List (List F), l ≠ [] → (Sil.of l).n = l.length := by
    intro l hl
    induction l using List.reverseRecOn with
    | nil => exact absurd rfl hl
    | append_singleton l x ih =>
      by_cases e : l = []
      · subst e; rfl
      · rw [Sil.of_append _ e, Sil.more, ih e]; simp
  rw [sil, h _ fun e => (own_eq_nil S).mp e hc, own, List.length_map]
  exact List.length_filter_le _ _

/-- The object after the samples `S`. -/
structure TInv (d : ℕ) (M : ℤ) (S : Samples F) (o : TObj F) : Prop where
  inv : Inv CSILmod (RepSil d) S (toObj o)
  cp : ∀ z : ℤ, Sc.int z ∈ o.core.CP → 0 ≤ z ∧ z ≤ S.length * M

theorem TInv.small {M : ℤ} {S : Samples F} {o : TObj F} (h : TInv d M S o) : Small M S.length o.core := by
  refine ⟨h.cp, ?_⟩
  rcases h.inv with ⟨rfl, e⟩ | ⟨-, -, e⟩
  · have : o.core.core.n = ⟨false, []⟩ := congrArg (fun o : Obj F => o.core.n) e
    simp [this]
  · have : o.core.core.n = _ := e.tables.n
    rw [this]
    intro m hm
    obtain ⟨c, hc, rfl⟩ := List.mem_map.mp hm
    exact sil_n_le S c hc

theorem feed_eq {B M : ℤ} (hF : IntExact F B d) (hM : 1 ≤ M) (T : List (TVec F × ℤ)) (hT : ∀ p ∈ T, Short d M p.1)
    (hd : (floats T).Dim d) :
    ∀ (S : Samples F) (o : TObj F), S.Dim d → TInv d M S o → 2 * ((S.length + T.length : ℕ) * M) ≤ B →
      (feed T o).mapState toObj = Verif.feed CSILmod (floats T) (toObj o) := by
  induction T with
  | nil => intro S o _ _ _; rfl
  | cons p T ih =>
    obtain ⟨x, c⟩ := p
    intro S o hS ho hK
    have hx := hT (x, c) (by simp)
    have hl : x.float.length = d := hd (x.float, c) (by simp [floats])
    have hK' : 2 * (((S.length : ℕ) + 1 : ℤ) * M) ≤ B := by
      refine le_trans ?_ hK
      have : ((S.length : ℤ) + 1) ≤ ((S.length + (T.length + 1) : ℕ) : ℤ) := by push_cast; omega
      have := mul_le_mul_of_nonneg_right this (show 0 ≤ M by omega)
      simp only [List.length_cons]
      linarith
    have e := getCvi_eq hF ho.small hM hK' hx c
    obtain ⟨r, o', h1, -, h2⟩ := CSIL.refines.call ho.inv c hS hl
    rw [h1] at e
    show ((getCvi x c >>= fun v => feed T >>= fun vs => pure (v :: vs)) o).mapState toObj =
      (Verif.getCvi CSILmod (.d1 x.float) (.int c) >>= fun v => Verif.feed CSILmod (floats T) >>= fun vs => pure (v :: vs)) (toObj o)
    simp only [bind_apply, h1, Res.bind_ok]
    cases hg : getCvi x c o with
    | err e' o1 => rw [hg] at e; cases e
    | ok v o1 =>
      rw [hg] at e
      obtain ⟨rfl, rfl⟩ := Res.ok.inj e
      have hcp : ∀ z : ℤ, Sc.int z ∈ o1.core.CP → 0 ≤ z ∧ z ≤ ((S ++ [(x.float, c)]).length : ℕ) * M := by
        rw [List.length_append, List.length_singleton]
        push_cast
        rw [getCvi] at hg
        cases hb : incBody x (o.labelMap.getInternalLabel c).1 o.core with
        | err e' t => simp [hb, Res.mapState] at hg
        | ok a t =>
          simp only [bind_apply, hb, Res.bind_ok] at hg
          cases hv : onRest CSIL.evaluate t with
          | err e' t' => simp [hv, Res.mapState] at hg
          | ok b t' =>
            simp only [hv, Res.bind_ok, get_apply, pure_apply, Res.mapState] at hg
            obtain ⟨-, rfl⟩ := Res.ok.inj hg
            simp only [onRest_inv hv]
            exact incBody_CP hF hb hM hK' hx ho.cp
      have := ih (fun p hp => hT p (by simp [hp])) (fun p hp => hd p (by simp only [floats, List.map_cons, List.mem_cons]; exact .inr hp))
        _ o1 (hS.append hl) ⟨h2, hcp⟩ (by
          refine le_trans (le_of_eq ?_) hK
          simp only [List.length_append, List.length_cons, List.length_nil]
          push_cast
          ring)
      simp only [Res.bind_ok]
      rw [← this]
      cases feed T o1 <;> rfl

end Verif.Gen.Typed

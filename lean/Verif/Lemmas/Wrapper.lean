import Verif.Model.Wrapper
import Verif.Lemmas.Inertia
import Verif.Spec.Wrapper
import Std.Data.String.ToNat

/-!
# Wrapper class: helper lemmas
-/

namespace Thunder.Wrap

/-! ## Predicates over outcomes -/

/-- Every state an outcome leaves behind satisfies `P`. -/
def Out.All (P : Obj → Prop) : Out → Prop
  | .ok s => P s
  | .exc s => P s
  | .ub => True

/-- As `All`, and there is no undefined behaviour. -/
def Out.Safe (P : Obj → Prop) : Out → Prop
  | .ok s => P s
  | .exc s => P s
  | .ub => False

theorem Out.All.bind {P Q : Obj → Prop} {o : Out} {k : Obj → Out} (h : o.All P) (hq : ∀ s, P s → Q s) (hk : ∀ s, P s → (k s).All Q) :
    (o.bind k).All Q := by
  cases o with
  | ok s => exact hk s h
  | exc s => exact hq s h
  | ub => trivial

theorem all_yaml {P : Obj → Prop} {α : Type} {o : Option α} {s : Obj} {k : α → Out} (h : P s) (hk : ∀ a, o = some a → (k a).All P) :
    (yaml o s k).All P := by
  cases o with
  | none => exact h
  | some a => exact hk a rfl

theorem all_must {P : Obj → Prop} {α : Type} {o : Option α} {k : α → Out} (hk : ∀ a, o = some a → (k a).All P) :
    (must o k).All P := by
  cases o with
  | none => trivial
  | some a => exact hk a rfl

theorem Out.Safe.bind {P Q : Obj → Prop} {o : Out} {k : Obj → Out} (h : o.Safe P) (hq : ∀ s, P s → Q s) (hk : ∀ s, P s → (k s).Safe Q) :
    (o.bind k).Safe Q := by
  cases o with
  | ok s => exact hk s h
  | exc s => exact hq s h
  | ub => exact h.elim

theorem safe_yaml {P : Obj → Prop} {α : Type} {o : Option α} {s : Obj} {k : α → Out} (h : P s) (hk : ∀ a, o = some a → (k a).Safe P) :
    (yaml o s k).Safe P := by
  cases o with
  | none => exact h
  | some a => exact hk a rfl

theorem safe_must {P : Obj → Prop} {α : Type} {o : Option α} {k : α → Out} {a : α} (h : o = some a) (hk : (k a).Safe P) :
    (must o k).Safe P := by subst h; exact hk

theorem Out.Safe.caught {P : Obj → Prop} {o : Out} (h : o.Safe P) : ∃ s, o.caught = some s ∧ P s := by
  cases o with
  | ok s => exact ⟨s, rfl, h⟩
  | exc s => exact ⟨s, rfl, h⟩
  | ub => exact h.elim

theorem Out.All.caught {P : Obj → Prop} {o : Out} (h : o.All P) {s : Obj} (e : o.caught = some s) : P s := by
  cases o with
  | ok s' => cases e; exact h
  | exc s' => cases e; exact h
  | ub => cases e

theorem Out.Safe.mono {P Q : Obj → Prop} {o : Out} (h : o.Safe P) (hq : ∀ s, P s → Q s) : o.Safe Q := by
  cases o with
  | ok s => exact hq s h
  | exc s => exact hq s h
  | ub => exact h.elim

/-! ## Vectors -/

theorem length_setSeg {v u xs : List Num} {off : ℕ} (h : setSeg v off xs = some u) : u.length = v.length := by
  unfold setSeg at h
  split at h
  · cases h; simp; omega
  · cases h

/-- Replace entries `off …` of `v`. -/
def splice (v : List Num) (off : ℕ) (xs : List Num) : List Num := v.take off ++ xs ++ v.drop (off + xs.length)

theorem setSeg_some {v xs : List Num} {off : ℕ} (h : off + xs.length ≤ v.length) : setSeg v off xs = some (splice v off xs) := by
  simp [setSeg, h, splice]

/-- Writing all entries. -/
theorem setSeg_full {v xs : List Num} (h : xs.length = v.length) : setSeg v 0 xs = some xs := by
  rw [setSeg_some (by omega)]; simp [h, splice]

theorem length_resize (v : List Num) (k : ℕ) : (resize v k).length = k := by
  unfold resize; split <;> simp_all

theorem length_conservativeResize (v : List Num) (k : ℕ) : (conservativeResize v k).length = k := by
  simp [conservativeResize]; omega

theorem length_regOfDynW (n : ℕ) (p : List Num) : (regOfDynW n p).length = 10 * n := by
  simp [regOfDynW, List.length_flatMap, linkReg, up6, mul_comm]

theorem length_dynOfRegW (n : ℕ) (p : List Num) : (dynOfRegW n p).length = 10 * n := by
  simp [dynOfRegW, List.length_flatMap, linkDyn, up6, mul_comm]

@[simp] theorem set_vec_same (s : Obj) (f : Field) (v : List Num) : (s.set f v).vec f = v := by simp [Obj.set]
theorem set_vec_ne (s : Obj) {f g : Field} (v : List Num) (h : g ≠ f) : (s.set f v).vec g = s.vec g := by
  simp [Obj.set, Function.update_of_ne h]
@[simp] theorem set_symb (s : Obj) (f : Field) (v : List Num) : (s.set f v).symb = s.symb := rfl
@[simp] theorem setSymb_vec (s : Obj) (f : SField) (v : List ℤ) : (s.setSymb f v).vec = s.vec := rfl

/-! ## Sizes of the members that are never compacted -/

/-- Members that `load_conf` compacts. -/
def Field.Compacted : Field → Prop
  | .DH | .W2L | .EE | .G => True
  | _ => False

/-- The other members have the size given by the constructor. -/
def Sized (c : Cfg) (s : Obj) : Prop := ∀ f : Field, ¬ f.Compacted → (s.vec f).length = c.size f

theorem sized_init (c : Cfg) : Sized c (init c) := fun f _ => by simp [init]

theorem Sized.set {c : Cfg} {s : Obj} (h : Sized c s) {f : Field} {v : List Num} (hv : ¬ f.Compacted → v.length = c.size f) :
    Sized c (s.set f v) := by
  intro g hg
  by_cases e : g = f
  · subst e; rw [set_vec_same]; exact hv hg
  · rw [set_vec_ne _ _ e]; exact h g hg

theorem Sized.setSymb {c : Cfg} {s : Obj} (h : Sized c s) (f : SField) (v : List ℤ) : Sized c (s.setSymb f v) := h

theorem Sized.set' {c : Cfg} {s : Obj} (h : Sized c s) {f : Field} {v : List Num} (hv : v.length = (s.vec f).length) :
    Sized c (s.set f v) := h.set fun hf => hv.trans (h f hf)

theorem sized_updateREG {c : Cfg} {s : Obj} (h : Sized c s) : (updateREG c s).All (Sized c) := by
  unfold updateREG
  split
  · trivial
  · exact all_must fun v hv => h.set' (length_setSeg hv)

theorem sized_updateDYN {c : Cfg} {s : Obj} (h : Sized c s) : (updateDYN c s).All (Sized c) := by
  unfold updateDYN
  split
  · trivial
  · exact all_must fun v hv => h.set' (length_setSeg hv)

theorem expected_eq (c : Cfg) (f : VarField) : f.expected c = c.size f.field := by cases f <;> rfl

theorem sized_regLoop {c : Cfg} : ∀ (l : List (Option String × Yaml)) (i : ℕ) (s : Obj), Sized c s → (regLoop c l i s).All (Sized c)
  | [], _, _, h => h
  | (key, nd) :: rest, i, s, h => by
    unfold regLoop
    split
    · exact h
    · exact all_yaml h fun _ _ => all_yaml h fun _ _ => all_yaml h fun _ _ => all_must fun v hv =>
        sized_regLoop rest _ _ (h.set' (length_setSeg hv))

theorem length_writeOrd {ord i : ℕ} {xs v u : List Num} (h : writeOrd ord i xs v = some u) : u.length = v.length := by
  unfold writeOrd at h
  split at h
  · cases h
  · exact length_setSeg h

theorem sized_dynLoop {c : Cfg} : ∀ (l : List (Option String × Yaml)) (i : ℕ) (s : Obj), Sized c s → (dynLoop c l i s).All (Sized c)
  | [], _, _, h => h
  | (key, nd) :: rest, i, s, h => by
    unfold dynLoop
    split
    · exact h
    · refine all_yaml h fun _ _ => all_yaml h fun _ _ => all_yaml h fun _ _ => all_must fun v hv => ?_
      have h1 := h.set' (f := .DYN) (length_setSeg hv)
      refine all_yaml h1 fun fric _ => ?_
      split
      · exact all_yaml h1 fun dl _ => all_must fun u hu => sized_dynLoop rest _ _ (h1.set' (length_writeOrd hu))
      · exact sized_dynLoop rest _ _ h1

theorem sized_readOrd {c : Cfg} {ord i : ℕ} {key : String} {f : Field} {nd : Yaml} {s : Obj} {k : Obj → Out} (h : Sized c s)
    (hk : ∀ s, Sized c s → (k s).All (Sized c)) : (readOrd ord i key f nd s k).All (Sized c) := by
  unfold readOrd
  split
  · exact hk s h
  · exact all_yaml h fun xs _ => all_must fun v hv => hk _ (h.set' (length_writeOrd hv))

theorem sized_elaLoop {c : Cfg} : ∀ (l : List (Option String × Yaml)) (i : ℕ) (s : Obj), Sized c s → (elaLoop c l i s).All (Sized c)
  | [], _, _, h => h
  | (key, nd) :: rest, i, s, h => by
    unfold elaLoop
    split
    · exact h
    · exact all_yaml h fun _ _ => sized_readOrd h fun s h => sized_readOrd h fun s h => sized_readOrd h fun s h =>
        all_yaml h fun m _ => all_must fun v hv => sized_elaLoop rest _ _ (h.set' (length_setSeg hv))

theorem sized_readSymb {c : Cfg} {nd : Yaml} {f : SField} {s : Obj} {k : Obj → Out} (h : Sized c s)
    (hk : ∀ s, Sized c s → (k s).All (Sized c)) : (readSymb nd f s k).All (Sized c) := by
  unfold readSymb
  refine all_yaml h fun sy _ => ?_
  split
  · exact all_yaml h fun fl _ => hk _ (h.setSymb f fl)
  · exact hk s h

theorem sized_loadKin {c : Cfg} {y : Yaml} {s : Obj} (h : Sized c s) : (loadKin c y s).All (Sized c) := by
  unfold loadKin
  refine all_yaml h fun kin _ => ?_
  split
  · have hs : ∀ {s : Obj} (v : List Num), Sized c s → Sized c (s.set .DH v) := fun v h => h.set fun hf => absurd trivial hf
    exact all_yaml (hs _ h) fun dh _ => sized_readSymb (hs _ h) fun s h => all_must fun _ _ => all_must fun _ _ => hs _ h
  · exact h

theorem sized_loadFrame {c : Cfg} {name : String} {f : Field} (hf : f.Compacted) {sf : SField} {y : Yaml} {s : Obj} (h : Sized c s) :
    (loadFrame name f sf y s).All (Sized c) := by
  unfold loadFrame
  refine all_yaml h fun kin _ => ?_
  split
  · have hs : ∀ {s : Obj} (v : List Num), Sized c s → Sized c (s.set f v) := fun v h => h.set fun hf' => absurd hf hf'
    exact sized_readSymb (hs _ h) fun s h => all_yaml h fun _ _ => all_yaml h fun _ _ => all_must fun _ _ => all_must fun _ _ =>
      all_must fun _ _ => hs _ h
  · exact h

theorem sized_loadGrav {c : Cfg} {y : Yaml} {s : Obj} (h : Sized c s) : (loadGrav y s).All (Sized c) := by
  unfold loadGrav
  refine all_yaml h fun kin _ => ?_
  split
  · have hs : ∀ {s : Obj} (v : List Num), Sized c s → Sized c (s.set .G v) := fun v h => h.set fun hf => absurd trivial hf
    exact sized_readSymb (hs _ h) fun s h => all_yaml h fun _ _ => all_must fun _ _ => all_must fun _ _ => hs _ h
  · exact h

theorem sized_loadDyn {c : Cfg} {upd : Bool} {y : Yaml} {s : Obj} (h : Sized c s) : (loadDyn c upd y s).All (Sized c) := by
  unfold loadDyn
  refine all_yaml h fun dyn _ => ?_
  split
  · refine (sized_dynLoop _ _ _ h).bind (fun _ h => h) fun s h => ?_
    split
    · exact sized_updateREG h
    · exact h
  · exact h

theorem sized_loadEla {c : Cfg} {y : Yaml} {s : Obj} (h : Sized c s) : (loadEla c y s).All (Sized c) := by
  unfold loadEla
  refine all_yaml h fun el _ => ?_
  split
  · exact all_yaml h fun js _ => sized_elaLoop _ _ _ h
  · exact h

theorem sized_run {c : Cfg} {k : Call} {s s' : Obj} (h : Sized c s) (e : k.run c s = some s') : Sized c s' := by
  cases k with
  | setVar f v =>
    refine Out.All.caught (o := setVar c f v s) ?_ e
    unfold setVar
    split
    · next hv => exact h.set fun _ => hv.trans (expected_eq c f)
    · exact h
  | setPar f v =>
    refine Out.All.caught (o := setPar f v s) ?_ e
    unfold setPar
    split
    · next hv => exact h.set' hv
    · exact h
  | setArguments a b d g =>
    refine Out.All.caught (o := setArguments c a b d g s) ?_ e
    unfold setArguments
    split
    · next hv =>
      exact (((h.set fun _ => hv.1).set fun _ => hv.2.1).set fun _ => hv.2.2.1).set fun _ => hv.2.2.2
    · exact h
  | setDH k v =>
    refine Out.All.caught (o := setDH k v s) ?_ e
    unfold setDH
    split
    · next hv =>
      split
      · exact h.set' hv
      · trivial
    · exact h
  | setDYN v u =>
    refine Out.All.caught (o := setDYN c v u s) ?_ e
    unfold setDYN
    have h1 : Sized c (if v.length = (s.vec .DYN).length then s.set .DYN v else s) := by
      split
      · next hv => exact h.set' hv
      · exact h
    cases u
    · exact h1
    · exact sized_updateREG h1
  | setREG v u =>
    refine Out.All.caught (o := setREG c v u s) ?_ e
    unfold setREG
    have h1 : Sized c (if v.length = (s.vec .REG).length then s.set .REG v else s) := by
      split
      · next hv => exact h.set' hv
      · exact h
    cases u
    · exact h1
    · exact sized_updateDYN h1
  | loadREG f u =>
    refine Out.All.caught ?_ e
    refine all_yaml h fun config _ => all_yaml h fun dyn _ => ?_
    split
    · refine (sized_regLoop _ _ _ h).bind (fun _ h => h) fun s h => ?_
      split
      · exact sized_updateDYN h
      · exact h
    · exact h
  | loadConf f u =>
    refine Out.All.caught ?_ e
    refine all_yaml h fun config _ => ?_
    exact (sized_loadKin h).bind (fun _ h => h) fun s h => (sized_loadFrame (f := .W2L) trivial h).bind (fun _ h => h) fun s h =>
      (sized_loadFrame (f := .EE) trivial h).bind (fun _ h => h) fun s h => (sized_loadDyn h).bind (fun _ h => h) fun s h =>
      (sized_loadGrav h).bind (fun _ h => h) fun s h => sized_loadEla h
  | resizeVariables =>
    cases e; exact sized_init c

theorem sized_runAll {c : Cfg} : ∀ (ks : List Call) {s s' : Obj}, Sized c s → runAll c ks s = some s' → Sized c s'
  | [], _, _, h, e => by cases e; exact h
  | k :: ks, s, s', h, e => by
    unfold runAll at e
    cases h1 : k.run c s with
    | none => rw [h1] at e; cases e
    | some s1 => rw [h1] at e; exact sized_runAll ks (sized_run h h1) e

/-! ## The two conversions on sized objects -/

theorem updateREG_eq {c : Cfg} {s : Obj} (h : Sized c s) : updateREG c s = .ok (s.set .REG (regOfDynW c.n (s.vec .DYN))) := by
  have hd : (s.vec .DYN).length = 10 * c.n := h .DYN id
  have hr : (s.vec .REG).length = 10 * c.n := h .REG id
  rw [updateREG, if_neg (by omega), setSeg_full (by rw [length_regOfDynW, hr])]
  rfl

theorem updateDYN_eq {c : Cfg} {s : Obj} (h : Sized c s) : updateDYN c s = .ok (s.set .DYN (dynOfRegW c.n (s.vec .REG))) := by
  have hd : (s.vec .DYN).length = 10 * c.n := h .DYN id
  have hr : (s.vec .REG).length = 10 * c.n := h .REG id
  rw [updateDYN, if_neg (by omega), setSeg_full (by rw [length_dynOfRegW, hd])]
  rfl

/-! ## The image -/

theorem getD_map_range {α : Type} (l : List α) (d : α) (k : ℕ) (h : l.length = k) : (List.range k).map (fun j => l.getD j d) = l := by
  subst h
  apply List.ext_getElem
  · simp
  · intro i h1 h2; simp [List.getD_eq_getElem?_getD, h2]

theorem flatMap_block (n : ℕ) (f : ℕ → List Num) (hf : ∀ i, (f i).length = 10) :
    (List.range n).flatMap f = (List.range (10 * n)).map fun j => (f (j / 10)).getD (j % 10) none := by
  rw [map_range_ten]
  refine List.flatMap_congr fun i _ => ?_
  rw [← getD_map_range (f i) none 10 (hf i)]
  refine List.map_congr_left fun l hl => ?_
  have := List.mem_range.mp hl
  rw [show (10 * i + l) / 10 = i by omega, show (10 * i + l) % 10 = l by omega]

theorem getElem?_flatMap_block {n : ℕ} {f : ℕ → List Num} (hf : ∀ i, (f i).length = 10) {i k : ℕ} (hi : i < n) (hk : k < 10) :
    ((List.range n).flatMap f)[10 * i + k]? = (f i)[k]? := by
  rw [flatMap_block n f hf, List.getElem?_map, List.getElem?_range (by omega)]
  simp only [Option.map_some]
  rw [show (10 * i + k) / 10 = i by omega, show (10 * i + k) % 10 = k by omega]
  simp [List.getD_eq_getElem?_getD, hf, hk]

theorem length_linkReg (st : Num → (Fin 3 → Num) → M3) (p : ℕ → Num) : (linkReg st p).length = 10 := by simp [linkReg, up6]
theorem length_linkDyn (st : Num → (Fin 3 → Num) → M3) (p : ℕ → Num) : (linkDyn st p).length = 10 := by simp [linkDyn, up6]

theorem consistent_of_eq {n : ℕ} {d r : List Num} (hd : d.length = 10 * n) (h : r = regOfDynW n d) : Spec.Consistent n d r := by
  refine ⟨hd, by rw [h, length_regOfDynW], fun i hi => ?_⟩
  have hs : ∀ k < 10, d[10 * i + k]? = some (seg d i k) := fun k hk => by
    have : 10 * i + k < d.length := by omega
    simp [seg, List.getD_eq_getElem?_getD, this]
  have hr : ∀ k < 10, r[10 * i + k]? = (linkReg steinerGen (seg d i))[k]? := fun k hk => by
    rw [h, regOfDynW_eq, regOfDyn]
    exact getElem?_flatMap_block (fun i => length_linkReg _ _) hi hk
  by_cases hall : ∀ k < 10, ∃ x, seg d i k = some x
  · choose! p hp using hall
    refine Or.inl ⟨p, fun k hk => by rw [hs k hk, hp k hk], fun k hk => ?_⟩
    rw [hr k hk, linkReg_congr hp, linkReg_some]
    simp [hk, linParOf]
  · push Not at hall
    obtain ⟨k, hk, hk'⟩ := hall
    have hk0 : seg d i k = none := Option.eq_none_iff_forall_ne_some.mpr hk'
    refine Or.inr ⟨⟨k, hk, by rw [hs k hk, hk0]⟩, ?_⟩
    have : k = 0 ∨ k = 1 ∨ k = 2 ∨ k = 3 ∨ k = 4 ∨ k = 5 ∨ k = 6 ∨ k = 7 ∨ k = 8 ∨ k = 9 := by omega
    refine ⟨k, hk, ?_⟩
    rw [hr k hk]
    rcases this with rfl | rfl | rfl | rfl | rfl | rfl | rfl | rfl | rfl | rfl <;>
      simp [linkReg, up6, hk0]

/-- A vector of real numbers in which every mass is non-zero. -/
def RealMass (n : ℕ) (r : List Num) : Prop := ∃ p : ℕ → ℝ, r = vecN (10 * n) p ∧ ∀ i < n, p (10 * i) ≠ 0

theorem reg_dyn_of_realMass {n : ℕ} {r : List Num} (h : RealMass n r) : regOfDynW n (dynOfRegW n r) = r := by
  obtain ⟨p, rfl, hp⟩ := h
  rw [regOfDynW_eq, dynOfRegW_eq, dynOfReg_vecN hp, regOfDyn_vecN]
  exact vecN_congr fun k hk => reg_dynPar hp hk

theorem dyn_reg_of_realMass {n : ℕ} {r : List Num} (h : RealMass n r) : dynOfRegW n (regOfDynW n r) = r := by
  obtain ⟨p, rfl, hp⟩ := h
  have hz : ∀ i < n, Spec.reg p (10 * i) ≠ 0 := fun i hi => by
    have := reg_eq_linParOf p i (l := 0) (by omega)
    rw [Nat.add_zero] at this
    rw [this]
    simpa [linParOf, Spec.linPar] using hp i hi
  rw [regOfDynW_eq, dynOfRegW_eq, regOfDyn_vecN, dynOfReg_vecN hz]
  exact vecN_congr fun k hk => dynPar_reg hp hk

/-! ## The loops over links -/

/-- The ten values of one entry of the section `dynamics`. -/
def readLink (com : String) (e : Option String × Yaml) : Option (List Num) :=
  e.1.bind fun _ => (e.2.getC "inertial").bind fun y => readInertial com y

theorem length_of_mapM {α β : Type} {f : α → Option β} : ∀ {l : List α} {r : List β}, l.mapM f = some r → r.length = l.length
  | [], r, h => by cases h; rfl
  | a :: l, r, h => by
    rw [List.mapM_cons] at h
    cases ha : f a with
    | none => rw [ha] at h; cases h
    | some b =>
      rw [ha] at h
      cases hl : l.mapM f with
      | none => rw [hl] at h; cases h
      | some bs => rw [hl] at h; cases h; simp [length_of_mapM hl]

theorem mapM_cons_some {α β : Type} {f : α → Option β} {a : α} {l : List α} {r : List β} (h : (a :: l).mapM f = some r) :
    ∃ b bs, f a = some b ∧ l.mapM f = some bs ∧ r = b :: bs := by
  rw [List.mapM_cons] at h
  cases ha : f a with
  | none => rw [ha] at h; cases h
  | some b =>
    rw [ha] at h
    cases hl : l.mapM f with
    | none => rw [hl] at h; cases h
    | some bs => rw [hl] at h; cases h; exact ⟨b, bs, rfl, rfl, rfl⟩

theorem length_readInertial {com : String} {y : Yaml} {p : List Num} (h : readInertial com y = some p) : p.length = 10 := by
  rw [length_of_mapM h]; rfl

theorem set_self (s : Obj) (f : Field) : s.set f (s.vec f) = s := by simp [Obj.set]
theorem set_set (s : Obj) (f : Field) (u v : List Num) : (s.set f u).set f v = s.set f v := by simp [Obj.set]
theorem set_comm (s : Obj) {f g : Field} (u v : List Num) (h : f ≠ g) : (s.set f u).set g v = (s.set g v).set f u := by
  simp [Obj.set, Function.update_comm h]

theorem length_splice {v xs : List Num} {off : ℕ} (h : off + xs.length ≤ v.length) : (splice v off xs).length = v.length := by
  simp [splice]; omega

theorem splice_nil (v : List Num) (off : ℕ) : splice v off [] = v := by simp [splice]

theorem splice_splice {v xs ys : List Num} {off : ℕ} (h : off + xs.length ≤ v.length) :
    splice (splice v off xs) (off + xs.length) ys = splice v off (xs ++ ys) := by
  have h1 : (v.take off ++ xs).length = off + xs.length := by simp; omega
  unfold splice
  rw [← h1, List.take_left, List.drop_append, List.drop_drop, h1]
  rw [List.drop_eq_nil_of_le (by omega)]
  simp only [List.nil_append, List.append_assoc, List.length_append]
  congr 4; omega

theorem splice_full {v xs : List Num} (h : xs.length = v.length) : splice v 0 xs = xs := by simp [splice, h]

theorem regLoop_ok {c : Cfg} : ∀ (items : List (Option String × Yaml)) (i : ℕ) (s : Obj) (L : List (List Num)), Sized c s → i ≤ c.n →
    (items.take (c.n - i)).mapM (readLink "m_CoM_") = some L →
    regLoop c items i s = .ok (s.set .REG (splice (s.vec .REG) (10 * i) L.flatten))
  | [], i, s, L, _, _, e => by
    simp only [List.take_nil, List.mapM_nil] at e
    cases e
    simp [regLoop, splice_nil, set_self]
  | (key, nd) :: rest, i, s, L, h, hi, e => by
    unfold regLoop
    by_cases hn : i = c.n
    · rw [if_pos hn]
      subst hn
      simp only [Nat.sub_self, List.take_zero, List.mapM_nil] at e
      cases e
      simp [splice_nil, set_self]
    · rw [if_neg hn]
      obtain ⟨m, hm⟩ : ∃ m, c.n - i = m + 1 := ⟨c.n - i - 1, by omega⟩
      rw [hm, List.take_succ_cons] at e
      obtain ⟨p, L', hp, hL', rfl⟩ := mapM_cons_some e
      simp only [readLink, Option.bind_eq_some_iff] at hp
      obtain ⟨k, rfl, inertial, h1, h2⟩ := hp
      have hlen := length_readInertial h2
      have hr : (s.vec .REG).length = 10 * c.n := h .REG id
      rw [h1, yaml, yaml, h2, yaml, setSeg_some (by omega), must]
      rw [regLoop_ok rest (i + 1) _ L' (h.set' (length_splice (by omega))) (by omega) (by rw [← hL']; congr 2; omega)]
      rw [set_vec_same, set_set]
      congr 2
      rw [List.flatten_cons, ← splice_splice (by omega : 10 * i + p.length ≤ _), hlen]
      rfl

/-- Values read from one entry of `dynamics` by `load_conf`: the ten inertial values and, if there is a node `friction`, the vector `Dl`. -/
def readDynLink (e : Option String × Yaml) : Option (List Num × Option (List Num)) :=
  (readLink "CoM_" e).bind fun p => (e.2.getC "friction").bind fun fr =>
    if fr.isDef then ((fr.getC "Dl").bind (Yaml.asVec Yaml.asD)).map fun dl => (p, some dl) else some (p, none)

/-- Effect of the friction values on `par_Dl`. -/
def dlWrites (ord : ℕ) : List (Option (List Num)) → ℕ → List Num → List Num
  | [], _, v => v
  | none :: L, i, v => dlWrites ord L (i + 1) v
  | some xs :: L, i, v => dlWrites ord L (i + 1) (splice v (ord * i) (xs.take ord))

theorem dynLoop_ok {c : Cfg} : ∀ (items : List (Option String × Yaml)) (i : ℕ) (s : Obj) (L : List (List Num × Option (List Num))),
    Sized c s → i ≤ c.n → (items.take (c.n - i)).mapM readDynLink = some L → (∀ e ∈ L, ∀ dl, e.2 = some dl → c.dlOrd ≤ dl.length) →
    dynLoop c items i s = .ok ((s.set .DYN (splice (s.vec .DYN) (10 * i) (L.map Prod.fst).flatten)).set .Dl
      (dlWrites c.dlOrd (L.map Prod.snd) i (s.vec .Dl)))
  | [], i, s, L, _, _, e, _ => by
    simp only [List.take_nil, List.mapM_nil] at e
    cases e
    simp [dynLoop, splice_nil, set_self, dlWrites]
  | (key, nd) :: rest, i, s, L, h, hi, e, hL => by
    unfold dynLoop
    by_cases hn : i = c.n
    · rw [if_pos hn]
      subst hn
      simp only [Nat.sub_self, List.take_zero, List.mapM_nil] at e
      cases e
      simp [splice_nil, set_self, dlWrites]
    · rw [if_neg hn]
      obtain ⟨m, hm⟩ : ∃ m, c.n - i = m + 1 := ⟨c.n - i - 1, by omega⟩
      rw [hm, List.take_succ_cons] at e
      obtain ⟨p, L', hp, hL', rfl⟩ := mapM_cons_some e
      simp only [readDynLink, readLink, Option.bind_eq_some_iff] at hp
      obtain ⟨v, ⟨k, rfl, inertial, h1, h2⟩, fr, h3, h4⟩ := hp
      have hlen := length_readInertial h2
      have hr : (s.vec .DYN).length = 10 * c.n := h .DYN id
      have hd : (s.vec .Dl).length = c.dlOrd * c.n := h .Dl id
      have hs1 : Sized c (s.set .DYN (splice (s.vec .DYN) (10 * i) v)) := h.set' (length_splice (by omega))
      have hrest : ∀ e ∈ L', ∀ dl, e.2 = some dl → c.dlOrd ≤ dl.length := fun e he => hL e (List.mem_cons_of_mem _ he)
      have hm' : (rest.take (c.n - (i + 1))).mapM readDynLink = some L' := by rw [← hL']; congr 2; omega
      rw [h1, yaml, yaml, h2, yaml, setSeg_some (by omega), must]
      simp only []
      rw [h3, yaml]
      by_cases hf : fr.isDef = true
      · rw [if_pos hf] at h4
        simp only [hf, if_true]
        obtain ⟨dl, h5, rfl⟩ := Option.map_eq_some_iff.mp h4
        have hdl : c.dlOrd ≤ dl.length := hL _ List.mem_cons_self dl rfl
        have htk : (dl.take c.dlOrd).length = c.dlOrd := by simp; omega
        have hfit : c.dlOrd * i + c.dlOrd ≤ c.dlOrd * c.n := by
          rw [← Nat.mul_succ]; exact Nat.mul_le_mul_left _ (by omega)
        have hvd : (s.set .DYN (splice (s.vec .DYN) (10 * i) v)).vec .Dl = s.vec .Dl := set_vec_ne _ _ (by decide)
        rw [h5, yaml, writeOrd, if_neg (by omega), hvd, setSeg_some (by omega), must]
        have hs2 : Sized c ((s.set .DYN (splice (s.vec .DYN) (10 * i) v)).set .Dl (splice (s.vec .Dl) (c.dlOrd * i) (dl.take c.dlOrd))) :=
          hs1.set' (by rw [length_splice (by omega), hvd])
        rw [dynLoop_ok rest (i + 1) _ L' hs2 (by omega) hm' hrest]
        rw [set_vec_ne _ _ (by decide : Field.DYN ≠ .Dl), set_vec_same, set_vec_same, set_comm _ _ _ (by decide : Field.Dl ≠ .DYN), set_set,
          set_set]
        simp only [List.map_cons, List.flatten_cons, dlWrites]
        rw [← splice_splice (v := s.vec .DYN) (xs := v) (by omega), hlen]
        rfl
      · rw [if_neg hf] at h4
        cases h4
        simp only [hf, if_false, Bool.false_eq_true]
        rw [dynLoop_ok rest (i + 1) _ L' hs1 (by omega) hm' hrest]
        rw [set_vec_ne _ _ (by decide : Field.Dl ≠ .DYN), set_vec_same, set_set]
        simp only [List.map_cons, List.flatten_cons, dlWrites]
        rw [← splice_splice (v := s.vec .DYN) (xs := v) (by omega), hlen]
        rfl

/-! ## What each section of `load_conf` leaves alone -/

/-- Same contents in the members satisfying `F`. -/
def Keeps (F : Field → Prop) (s s' : Obj) : Prop := ∀ f, F f → s'.vec f = s.vec f

theorem Keeps.refl (F : Field → Prop) (s : Obj) : Keeps F s s := fun _ _ => rfl
theorem Keeps.set {F : Field → Prop} {s s' : Obj} (h : Keeps F s s') {f : Field} {v : List Num} (hf : ¬ F f) : Keeps F s (s'.set f v) :=
  fun g hg => (set_vec_ne _ _ fun e => hf (by rw [← e]; exact hg)).trans (h g hg)
theorem Keeps.setSymb {F : Field → Prop} {s s' : Obj} (h : Keeps F s s') (f : SField) (v : List ℤ) : Keeps F s (s'.setSymb f v) := h

theorem keeps_readSymb {F : Field → Prop} {s0 : Obj} {nd : Yaml} {f : SField} {s : Obj} {k : Obj → Out} (h : Keeps F s0 s)
    (hk : ∀ s, Keeps F s0 s → (k s).All (Keeps F s0)) : (readSymb nd f s k).All (Keeps F s0) := by
  unfold readSymb
  refine all_yaml h fun sy _ => ?_
  split
  · exact all_yaml h fun fl _ => hk _ (h.setSymb f fl)
  · exact hk s h

theorem keeps_loadKin {c : Cfg} {F : Field → Prop} (hF : ¬ F .DH) {y : Yaml} {s0 s : Obj} (h : Keeps F s0 s) :
    (loadKin c y s).All (Keeps F s0) := by
  unfold loadKin
  refine all_yaml h fun kin _ => ?_
  split
  · exact all_yaml (h.set hF) fun dh _ => keeps_readSymb (h.set hF) fun s h => all_must fun _ _ => all_must fun _ _ => h.set hF
  · exact h

theorem keeps_loadFrame {F : Field → Prop} {name : String} {f : Field} (hF : ¬ F f) {sf : SField} {y : Yaml} {s0 s : Obj}
    (h : Keeps F s0 s) : (loadFrame name f sf y s).All (Keeps F s0) := by
  unfold loadFrame
  refine all_yaml h fun kin _ => ?_
  split
  · exact keeps_readSymb (h.set hF) fun s h => all_yaml h fun _ _ => all_yaml h fun _ _ => all_must fun _ _ => all_must fun _ _ =>
      all_must fun _ _ => h.set hF
  · exact h

theorem keeps_loadGrav {F : Field → Prop} (hF : ¬ F .G) {y : Yaml} {s0 s : Obj} (h : Keeps F s0 s) :
    (loadGrav y s).All (Keeps F s0) := by
  unfold loadGrav
  refine all_yaml h fun kin _ => ?_
  split
  · exact keeps_readSymb (h.set hF) fun s h => all_yaml h fun _ _ => all_must fun _ _ => all_must fun _ _ => h.set hF
  · exact h

theorem keeps_readOrd {F : Field → Prop} {s0 : Obj} {ord i : ℕ} {key : String} {f : Field} (hF : ¬ F f) {nd : Yaml} {s : Obj} {k : Obj → Out}
    (h : Keeps F s0 s) (hk : ∀ s, Keeps F s0 s → (k s).All (Keeps F s0)) : (readOrd ord i key f nd s k).All (Keeps F s0) := by
  unfold readOrd
  split
  · exact hk s h
  · exact all_yaml h fun xs _ => all_must fun v hv => hk _ (h.set hF)

theorem keeps_elaLoop {c : Cfg} {F : Field → Prop} (hK : ¬ F .K) (hD : ¬ F .D) (hDm : ¬ F .Dm) (hMm : ¬ F .Mm) {s0 : Obj} :
    ∀ (l : List (Option String × Yaml)) (i : ℕ) (s : Obj), Keeps F s0 s → (elaLoop c l i s).All (Keeps F s0)
  | [], _, _, h => h
  | (key, nd) :: rest, i, s, h => by
    unfold elaLoop
    split
    · exact h
    · exact all_yaml h fun _ _ => keeps_readOrd hK h fun s h => keeps_readOrd hD h fun s h => keeps_readOrd hDm h fun s h =>
        all_yaml h fun m _ => all_must fun v hv => keeps_elaLoop hK hD hDm hMm rest _ _ (h.set hMm)

theorem keeps_loadEla {c : Cfg} {F : Field → Prop} (hK : ¬ F .K) (hD : ¬ F .D) (hDm : ¬ F .Dm) (hMm : ¬ F .Mm) {y : Yaml} {s0 s : Obj}
    (h : Keeps F s0 s) : (loadEla c y s).All (Keeps F s0) := by
  unfold loadEla
  refine all_yaml h fun el _ => ?_
  split
  · exact all_yaml h fun js _ => keeps_elaLoop hK hD hDm hMm _ _ _ h
  · exact h

end Thunder.Wrap

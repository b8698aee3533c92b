import Verif.Lemmas.Wrapper

/-!
# Wrapper class: the consistency invariant over call histories
-/

namespace Thunder.Wrap

/-- The call uses the default value of its update flag. -/
def Call.Default : Call → Prop
  | .setDYN _ u => u = true
  | .setREG _ u => u = true
  | .loadREG _ u => u = true
  | .loadConf _ u => u = true
  | _ => True

/-- Conditions of `C30_partial` on a call made in state `s`.
* `set_par_REG`: the vector that ends up in `par_REG` (the argument, or the old value if the size is wrong) consists of numbers and has no
  zero mass;
* `load_par_REG`: if there is a section `dynamics`, its first `n` entries are complete and the resulting `par_REG` has no zero mass;
* `load_conf`: if there is a section `dynamics`, its first `n` entries are complete. -/
def Call.Safe (c : Cfg) (s : Obj) : Call → Prop
  | .setREG v _ => RealMass c.n (if v.length = (s.vec .REG).length then v else s.vec .REG)
  | .loadREG f _ => ∀ y dyn, f = some y → y.getM "dynamics" = some dyn → dyn.isDef = true →
      ∃ L, (dyn.items.take c.n).mapM (readLink "m_CoM_") = some L ∧ RealMass c.n (splice (s.vec .REG) 0 L.flatten)
  | .loadConf f _ => ∀ y dyn, f = some y → y.getM "dynamics" = some dyn → dyn.isDef = true →
      ∃ L, (dyn.items.take c.n).mapM readDynLink = some L ∧ ∀ e ∈ L, ∀ dl, e.2 = some dl → c.dlOrd ≤ dl.length
  | _ => True

/-- Every call of the history satisfies its condition when it is made. -/
def SafeRun (c : Cfg) : List Call → Obj → Prop
  | [], _ => True
  | k :: ks, s => k.Default ∧ k.Safe c s ∧ ∀ s', k.run c s = some s' → SafeRun c ks s'

/-- Invariant: sizes, and `par_REG` is what `update_inertial_REG` computes. -/
def Inv (c : Cfg) (s : Obj) : Prop := Sized c s ∧ s.vec .REG = regOfDynW c.n (s.vec .DYN)

theorem inv_init (c : Cfg) : Inv c (init c) := by
  refine ⟨sized_init c, ?_⟩
  have h0 : ∀ k, List.replicate k (some (0 : ℝ)) = vecN k fun _ => 0 := fun k => by simp [vecN]
  simp only [init, Cfg.size]
  rw [h0, regOfDynW_eq, regOfDyn_vecN]
  refine vecN_congr fun j hj => ?_
  have hl : j % 10 < 10 := Nat.mod_lt _ (by decide)
  have := reg_eq_linParOf (fun _ => 0) (j / 10) hl
  rw [show 10 * (j / 10) + j % 10 = j by omega] at this
  rw [this]
  generalize j % 10 = l at hl
  have : l = 0 ∨ l = 1 ∨ l = 2 ∨ l = 3 ∨ l = 4 ∨ l = 5 ∨ l = 6 ∨ l = 7 ∨ l = 8 ∨ l = 9 := by omega
  rcases this with rfl | rfl | rfl | rfl | rfl | rfl | rfl | rfl | rfl | rfl <;> simp [linParOf, Spec.linPar, Spec.originInertia]

theorem Inv.keep {c : Cfg} {s s' : Obj} (h : Inv c s) (hs : Sized c s') (hk : Keeps (fun f => f = .DYN ∨ f = .REG) s s') : Inv c s' :=
  ⟨hs, by rw [hk .REG (Or.inr rfl), hk .DYN (Or.inl rfl)]; exact h.2⟩

theorem out_all_and {P Q : Obj → Prop} {o : Out} (h1 : o.All P) (h2 : o.All Q) : o.All fun s => P s ∧ Q s := by
  cases o with
  | ok s => exact ⟨h1, h2⟩
  | exc s => exact ⟨h1, h2⟩
  | ub => trivial

theorem inv_updateREG {c : Cfg} {s : Obj} (h : Sized c s) : (updateREG c s).All (Inv c) := by
  rw [updateREG_eq h]
  refine ⟨h.set fun _ => length_regOfDynW _ _, ?_⟩
  rw [set_vec_same, set_vec_ne _ _ (by decide)]

theorem inv_updateDYN {c : Cfg} {s : Obj} (h : Sized c s) (hm : RealMass c.n (s.vec .REG)) : (updateDYN c s).All (Inv c) := by
  rw [updateDYN_eq h]
  refine ⟨h.set fun _ => length_dynOfRegW _ _, ?_⟩
  rw [set_vec_same, set_vec_ne _ _ (by decide), reg_dyn_of_realMass hm]

theorem inv_run {c : Cfg} {k : Call} {s s' : Obj} (h : Inv c s) (hd : k.Default) (hs : k.Safe c s) (e : k.run c s = some s') : Inv c s' := by
  have hsz := sized_run h.1 e
  have hset : ∀ f v, f ≠ Field.DYN → f ≠ Field.REG → Keeps (fun f => f = .DYN ∨ f = .REG) s (s.set f v) := fun f v h1 h2 =>
    (Keeps.refl _ s).set fun hf => hf.elim h1 h2
  cases k with
  | setVar f v =>
    simp only [Call.run, setVar] at e
    split at e <;> cases e
    · exact h.keep hsz (hset _ _ (by cases f <;> decide) (by cases f <;> decide))
    · exact h
  | setPar f v =>
    simp only [Call.run, setPar] at e
    split at e <;> cases e
    · exact h.keep hsz (hset _ _ (by cases f <;> decide) (by cases f <;> decide))
    · exact h
  | setArguments a b d g =>
    simp only [Call.run, setArguments] at e
    split at e <;> cases e
    · exact h.keep hsz ((((hset _ _ (by decide) (by decide)).set (by simp)).set (by simp)).set (by simp))
    · exact h
  | setDH k v =>
    simp only [Call.run, setDH] at e
    split at e
    · split at e <;> cases e
      exact h.keep hsz (hset _ _ (by decide) (by decide))
    · cases e; exact h
  | setDYN v u =>
    cases (hd : u = true)
    refine Out.All.caught (o := setDYN c v true s) ?_ e
    unfold setDYN
    refine inv_updateREG ?_
    split
    · next hv => exact h.1.set' hv
    · exact h.1
  | setREG v u =>
    cases (hd : u = true)
    refine Out.All.caught (o := setREG c v true s) ?_ e
    unfold setREG
    by_cases hv : v.length = (s.vec .REG).length
    · rw [Call.Safe, if_pos hv] at hs
      simp only [hv, if_true]
      exact inv_updateDYN (h.1.set' hv) (by rw [set_vec_same]; exact hs)
    · rw [Call.Safe, if_neg hv] at hs
      simp only [hv, if_false, if_true]
      exact inv_updateDYN h.1 hs
  | loadREG f u =>
    cases (hd : u = true)
    refine Out.All.caught ?_ e
    refine all_yaml h fun config hc => all_yaml h fun dyn hdyn => ?_
    split
    · next hdef =>
      obtain ⟨L, hL, hm⟩ := hs config dyn hc hdyn hdef
      have hlen : L.flatten.length ≤ 10 * c.n := by
        have h10 : ∀ l ∈ L, l.length = 10 := by
          have hall := hL
          clear hL hm
          revert L
          generalize dyn.items.take c.n = its
          induction its with
          | nil => intro L hL; cases hL; simp
          | cons a its ih =>
            intro L hL
            obtain ⟨b, bs, h1, h2, rfl⟩ := mapM_cons_some hL
            simp only [readLink, Option.bind_eq_some_iff] at h1
            obtain ⟨_, _, _, _, h1⟩ := h1
            intro l hl
            rcases List.mem_cons.mp hl with rfl | hl
            · exact length_readInertial h1
            · exact ih bs h2 l hl
        have h1 : L.flatten.length = 10 * L.length := by
          rw [List.length_flatten, List.map_congr_left h10]; simp [mul_comm]
        have h2 := length_of_mapM hL
        rw [h1, h2, List.length_take]
        omega
      have hreg : (s.vec .REG).length = 10 * c.n := h.1 .REG id
      rw [regLoop_ok _ 0 s L h.1 (Nat.zero_le _) hL]
      exact inv_updateDYN (h.1.set' (length_splice (by omega))) (by rw [set_vec_same]; exact hm)
    · exact h
  | loadConf f u =>
    cases (hd : u = true)
    refine Out.All.caught ?_ e
    refine all_yaml h fun config hc => ?_
    unfold loadBody
    refine (out_all_and (sized_loadKin h.1) (keeps_loadKin (by simp) (Keeps.refl _ s))).bind (fun _ h' => h.keep h'.1 h'.2) fun s1 h1 => ?_
    refine (out_all_and (sized_loadFrame (f := .W2L) trivial h1.1) (keeps_loadFrame (f := .W2L) (by simp) h1.2)).bind (fun _ h' => h.keep h'.1 h'.2) fun s2 h2 => ?_
    refine (out_all_and (sized_loadFrame (f := .EE) trivial h2.1) (keeps_loadFrame (f := .EE) (by simp) h2.2)).bind
      (fun _ h' => h.keep h'.1 h'.2) fun s3 h3 => ?_
    have hi3 := h.keep h3.1 h3.2
    refine Out.All.bind (P := Inv c) ?_ (fun _ h => h) fun s4 h4 => ?_
    · unfold loadDyn
      refine all_yaml hi3 fun dyn hdyn => ?_
      split
      · next hdef =>
        obtain ⟨L, hL, hdl⟩ := hs config dyn hc hdyn hdef
        have hok := dynLoop_ok _ 0 s3 L h3.1 (Nat.zero_le _) hL hdl
        have hsz := sized_dynLoop dyn.items 0 s3 h3.1
        rw [hok] at hsz ⊢
        exact inv_updateREG hsz
      · exact hi3
    · refine (out_all_and (sized_loadGrav h4.1) (keeps_loadGrav (by simp) (Keeps.refl _ s4))).bind (fun _ h' => h4.keep h'.1 h'.2)
        fun s5 h5 => ?_
      have h6 := out_all_and (sized_loadEla (c := c) (y := config) h5.1) (keeps_loadEla (c := c) (y := config) (by simp) (by simp) (by simp)
        (by simp) h5.2)
      revert h6
      cases loadEla c config s5 with
      | ok s6 => exact fun h6 => h4.keep h6.1 h6.2
      | exc s6 => exact fun h6 => h4.keep h6.1 h6.2
      | ub => exact fun _ => trivial
  | resizeVariables => cases e; exact inv_init c

theorem inv_runAll {c : Cfg} : ∀ (ks : List Call) {s s' : Obj}, Inv c s → SafeRun c ks s → runAll c ks s = some s' → Inv c s'
  | [], _, _, h, _, e => by cases e; exact h
  | k :: ks, s, s', h, hs, e => by
    unfold runAll at e
    cases h1 : k.run c s with
    | none => rw [h1] at e; cases e
    | some s1 => rw [h1] at e; exact inv_runAll ks (inv_run h hs.1 hs.2.1 h1) (hs.2.2 s1 h1) e

/-! ## The two inertial setters on sized objects -/

theorem run_setREG {c : Cfg} {s : Obj} (h : Sized c s) {v : List Num} (hv : v.length = 10 * c.n) :
    (Call.setREG v true).run c s = some ((s.set .REG v).set .DYN (dynOfRegW c.n v)) := by
  have hr : (s.vec .REG).length = 10 * c.n := h .REG id
  have hv' : v.length = (s.vec .REG).length := by rw [hv, hr]
  simp only [Call.run, setREG, if_pos hv', if_true, updateDYN_eq (h.set' hv'), set_vec_same]
  rfl

theorem run_setREG_wrong {c : Cfg} {s : Obj} (h : Sized c s) {v : List Num} (hv : v.length ≠ 10 * c.n) :
    (Call.setREG v true).run c s = some (s.set .DYN (dynOfRegW c.n (s.vec .REG))) := by
  have hr : (s.vec .REG).length = 10 * c.n := h .REG id
  have hv' : ¬ v.length = (s.vec .REG).length := by rw [hr]; exact hv
  simp only [Call.run, setREG, if_neg hv', if_true, updateDYN_eq h]
  rfl

theorem run_setDYN {c : Cfg} {s : Obj} (h : Sized c s) {v : List Num} (hv : v.length = 10 * c.n) :
    (Call.setDYN v true).run c s = some ((s.set .DYN v).set .REG (regOfDynW c.n v)) := by
  have hr : (s.vec .DYN).length = 10 * c.n := h .DYN id
  have hv' : v.length = (s.vec .DYN).length := by rw [hv, hr]
  simp only [Call.run, setDYN, if_pos hv', if_true, updateREG_eq (h.set' hv'), set_vec_same]
  rfl

theorem run_setDYN_wrong {c : Cfg} {s : Obj} (h : Sized c s) {v : List Num} (hv : v.length ≠ 10 * c.n) :
    (Call.setDYN v true).run c s = some (s.set .REG (regOfDynW c.n (s.vec .DYN))) := by
  have hr : (s.vec .DYN).length = 10 * c.n := h .DYN id
  have hv' : ¬ v.length = (s.vec .DYN).length := by rw [hr]; exact hv
  simp only [Call.run, setDYN, if_neg hv', if_true, updateREG_eq h]
  rfl

/-! ## Files with the single section `dynamics` -/

theorem out_bind_ok (o : Out) : (o.bind fun s => .ok s) = o := by cases o <;> rfl

theorem loadBody_dyn (c : Cfg) (upd : Bool) (dyn : Yaml) (s : Obj) :
    loadBody c upd (.map [(some "dynamics", dyn)]) s =
      if dyn.isDef then (dynLoop c dyn.items 0 s).bind fun s => if upd then updateREG c s else .ok s else .ok s := by
  have hk : ∀ s, loadKin c (.map [(some "dynamics", dyn)]) s = .ok s := fun s => by simp [loadKin, Yaml.getM, Yaml.lookup, yaml, Yaml.isDef]
  have hb : ∀ s, loadFrame "Base_to_L0" .W2L .W2L (.map [(some "dynamics", dyn)]) s = .ok s := fun s => by
    simp [loadFrame, Yaml.getM, Yaml.lookup, yaml, Yaml.isDef]
  have he : ∀ s, loadFrame "Ln_to_EE" .EE .EE (.map [(some "dynamics", dyn)]) s = .ok s := fun s => by
    simp [loadFrame, Yaml.getM, Yaml.lookup, yaml, Yaml.isDef]
  have hg : ∀ s, loadGrav (.map [(some "dynamics", dyn)]) s = .ok s := fun s => by simp [loadGrav, Yaml.getM, Yaml.lookup, yaml, Yaml.isDef]
  have hl : ∀ s, loadEla c (.map [(some "dynamics", dyn)]) s = .ok s := fun s => by simp [loadEla, Yaml.getM, Yaml.lookup, yaml, Yaml.isDef]
  have hd : ∀ s, loadDyn c upd (.map [(some "dynamics", dyn)]) s =
      if dyn.isDef then (dynLoop c dyn.items 0 s).bind fun s => if upd then updateREG c s else .ok s else .ok s := fun s => by
    simp [loadDyn, Yaml.getM, Yaml.lookup, yaml]
  unfold loadBody
  rw [hk]
  simp only [hb, he, hg, hl, hd, out_bind_ok]
  rfl

/-- For vectors of numbers, consistency determines `par_REG`. -/
theorem eq_of_consistent {n : ℕ} {r : List Num} {p : ℕ → ℝ} (h : Spec.Consistent n (vecN (10 * n) p) r) : r = regOfDynW n (vecN (10 * n) p) := by
  obtain ⟨-, hl, h⟩ := h
  rw [regOfDynW_eq, regOfDyn_vecN]
  refine List.ext_getElem? fun j => ?_
  by_cases hj : j < 10 * n
  · have hi : j / 10 < n := by omega
    have hk : j % 10 < 10 := Nat.mod_lt _ (by decide)
    have hjk : 10 * (j / 10) + j % 10 = j := by omega
    rcases h (j / 10) hi with ⟨x, hx, hy⟩ | ⟨⟨k, hk, hk'⟩, -⟩
    · have h1 := hy (j % 10) hk
      have hxp : ∀ k < 10, x k = p (10 * (j / 10) + k) := fun k hk => by
        have := hx k hk
        have hlt : 10 * (j / 10) + k < 10 * n := by omega
        simp only [vecN, List.getElem?_map, List.getElem?_range hlt, Option.map_some, Option.some.injEq] at this
        exact this.symm
      rw [hjk] at h1
      rw [h1, vecN, List.getElem?_map, List.getElem?_range hj, Option.map_some, ← hjk, reg_eq_linParOf p _ hk, hjk]
      simp only [linParOf, hxp 0 (by decide), hxp 1 (by decide), hxp 2 (by decide), hxp 3 (by decide), hxp 4 (by decide), hxp 5 (by decide),
        hxp 6 (by decide), hxp 7 (by decide), hxp 8 (by decide), hxp 9 (by decide)]
    · have hlt : 10 * (j / 10) + k < 10 * n := by omega
      simp [vecN, hlt] at hk'
  · rw [List.getElem?_eq_none (by omega), List.getElem?_eq_none (by rw [length_vecN]; omega)]

end Thunder.Wrap

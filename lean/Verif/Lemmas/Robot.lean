import Verif.Spec.Robot

/-!
# Lemmas about the class `Robot`
-/

open scoped Classical

namespace Thunder

open Act Robot Spec

/-! ## Robots that differ only by empty entries of `args` -/

namespace Robot

/-- The same robot up to empty entries of `args`. -/
structure Sim (r r' : Robot) : Prop where
  eq : r' = { r with args := r'.args }
  arg : ∀ k, r.arg k = r'.arg k

theorem Sim.refl (r : Robot) : Sim r r := ⟨rfl, fun _ => rfl⟩
theorem Sim.symm {r r' : Robot} (h : Sim r r') : Sim r' r :=
  ⟨by rw [h.eq], fun k => (h.arg k).symm⟩
theorem Sim.trans {a b c : Robot} (h : Sim a b) (g : Sim b c) : Sim a c :=
  ⟨by rw [g.eq, h.eq], fun k => (h.arg k).trans (g.arg k)⟩

theorem Sim.n {r r' : Robot} (h : Sim r r') : r'.n = r.n := by rw [h.eq]
theorem Sim.ne {r r' : Robot} (h : Sim r r') : r'.ne = r.ne := by rw [h.eq]
theorem Sim.elastic {r r' : Robot} (h : Sim r r') : r'.elastic = r.elastic := by rw [h.eq]
theorem Sim.kOrd {r r' : Robot} (h : Sim r r') : r'.kOrd = r.kOrd := by rw [h.eq]; rfl
theorem Sim.dOrd {r r' : Robot} (h : Sim r r') : r'.dOrd = r.dOrd := by rw [h.eq]; rfl
theorem Sim.dlOrd {r r' : Robot} (h : Sim r r') : r'.dlOrd = r.dlOrd := by rw [h.eq]; rfl
theorem Sim.dmOrd {r r' : Robot} (h : Sim r r') : r'.dmOrd = r.dmOrd := by rw [h.eq]; rfl
theorem Sim.model {r r' : Robot} (h : Sim r r') : r'.model = r.model := by rw [h.eq]
theorem Sim.symb {r r' : Robot} (h : Sim r r') : r'.symb = r.symb := by rw [h.eq]
theorem Sim.funs {r r' : Robot} (h : Sim r r') : r'.funs = r.funs := by rw [h.eq]
theorem Sim.funArgs {r r' : Robot} (h : Sim r r') : r'.funArgs = r.funArgs := by rw [h.eq]
theorem Sim.funDescr {r r' : Robot} (h : Sim r r') : r'.funDescr = r.funDescr := by rw [h.eq]
theorem Sim.mod {r r' : Robot} (h : Sim r r') (k : String) : r'.mod k = r.mod k := by rw [h.eq]; rfl
theorem Sim.flags {r r' : Robot} (h : Sim r r') (k : String) : r'.flags k = r.flags k := by rw [h.eq]; rfl
theorem Sim.argF {r r' : Robot} (h : Sim r r') : r'.arg = r.arg := funext fun k => (h.arg k).symm

theorem arg_touch (r : Robot) (k k₂ : String) : (r.touchArg k).arg k₂ = r.arg k₂ := SMap.get_ins_default _ _ _ _

theorem sim_touch (r : Robot) (k : String) : Sim r (r.touchArg k) := ⟨rfl, fun k₂ => (arg_touch r k k₂).symm⟩

theorem sim_touches (l : List String) (r : Robot) : Sim r (l.foldl touchArg r) := by
  induction l generalizing r with
  | nil => exact Sim.refl r
  | cons a l ih => exact (sim_touch r a).trans (ih _)

theorem arg_setArgs (r : Robot) (k : String) (v : List Num) (k₂ : String) :
    (r.setArgs k v).arg k₂ = if k = k₂ then v else r.arg k₂ := by
  simp only [arg, setArgs, SMap.get, SMap.find_put]
  split_ifs <;> rfl

theorem Sim.setArgs {r r' : Robot} (h : Sim r r') (k : String) (v : List Num) : Sim (r.setArgs k v) (r'.setArgs k v) := by
  refine ⟨?_, fun k₂ => ?_⟩
  · conv_lhs => rw [h.eq]
    rfl
  · rw [arg_setArgs, arg_setArgs, h.arg]

theorem Sim.touchArg {r r' : Robot} (h : Sim r r') (k : String) : Sim (r.touchArg k) (r'.touchArg k) :=
  (sim_touch r k).symm.trans (h.trans (sim_touch r' k))

theorem Sim.touches {r r' : Robot} (h : Sim r r') (l : List String) : Sim (l.foldl Robot.touchArg r) (l.foldl Robot.touchArg r') :=
  (sim_touches l r).symm.trans (h.trans (sim_touches l r'))

/-- Corresponding outcomes. -/
def RSim {α : Type} : Res Robot α → Res Robot α → Prop
  | .ok a r, .ok b r' => a = b ∧ Sim r r'
  | .yaml r, .yaml r' => Sim r r'
  | .exc r, .exc r' => Sim r r'
  | .ub, .ub => True
  | _, _ => False

/-- Two pieces of code that correspond on similar robots. -/
def Rel {α : Type} (x y : Act Robot α) : Prop := ∀ r r', Sim r r' → RSim (x r) (y r')

variable {α β : Type}

theorem Rel.pure (a : α) : Rel (pure a) (pure a) := fun _ _ h => ⟨rfl, h⟩

theorem Rel.bind {x y : Act Robot α} {f g : α → Act Robot β} (h : Rel x y) (hf : ∀ a, Rel (f a) (g a)) :
    Rel (x >>= f) (y >>= g) := by
  intro r r' hs
  have h' := h r r' hs
  rw [bind_def, bind_def]
  cases hx : x r <;> cases hy : y r' <;> rw [hx, hy] at h' <;> first | exact h'.elim | skip
  · obtain ⟨rfl, h2⟩ := h'; exact hf _ _ _ h2
  · exact h'
  · exact h'
  · trivial

theorem Rel.read {f g : Robot → Act Robot β} (hf : ∀ r r', Sim r r' → Rel (f r) (g r')) : Rel (Act.read >>= f) (Act.read >>= g) := by
  intro r r' hs
  exact hf r r' hs r r' hs

theorem Rel.modify {f g : Robot → Robot} (h : ∀ r r', Sim r r' → Sim (f r) (g r')) : Rel (Act.modify f) (Act.modify g) :=
  fun r r' hs => ⟨rfl, h r r' hs⟩

theorem Rel.ofYaml (o : Option α) : Rel (Act.ofYaml o) (Act.ofYaml o) := fun r r' hs => by
  cases o
  · exact hs
  · exact ⟨rfl, hs⟩
theorem Rel.ofExc (o : Option α) : Rel (Act.ofExc o) (Act.ofExc o) := fun r r' hs => by
  cases o
  · exact hs
  · exact ⟨rfl, hs⟩
theorem Rel.ofIdx (o : Option α) : Rel (Act.ofIdx o) (Act.ofIdx o) := fun r r' hs => by
  cases o
  · trivial
  · exact ⟨rfl, hs⟩

theorem Rel.ite {c : Prop} [Decidable c] {x y x' y' : Act Robot α} (h : Rel x x') (h' : Rel y y') :
    Rel (if c then x else y) (if c then x' else y') := by
  split_ifs
  · exact h
  · exact h'

theorem Rel.tryYaml {x y h₁ h₂ : Act Robot α} (h : Rel x y) (h' : Rel h₁ h₂) : Rel (Act.tryYaml x h₁) (Act.tryYaml y h₂) := by
  intro r r' hs
  have h1 := h r r' hs
  unfold Act.tryYaml
  cases hx : x r <;> cases hy : y r' <;> rw [hx, hy] at h1 <;> first | exact h1.elim | skip
  · exact h1
  · exact h' _ _ h1
  · exact h1
  · trivial

/-- Touching arguments is invisible. -/
theorem Rel.touch (k : String) : Rel (Act.modify fun r => Robot.touchArg r k) (Act.modify fun r => Robot.touchArg r k) :=
  Rel.modify fun _ _ h => h.touchArg k

theorem rel_assign (k : String) (xs : List Num) : Rel (assign k xs) (assign k xs) := by
  refine Rel.read fun r r' h => ?_
  rw [h.argF]
  refine Rel.ite (Rel.modify fun a b hab => hab.setArgs _ _) (Rel.bind (Rel.modify fun a b hab => hab.setArgs _ _) fun _ => Rel.ofExc _)

theorem rel_setSized (k : String) (s : ℕ) (v : List Num) : Rel (setSized k s v) (setSized k s v) :=
  Rel.bind (Rel.touch k) fun _ => Rel.ite (Rel.bind (rel_assign k v) fun _ => Rel.pure _) (Rel.pure _)

theorem rel_setVar (f : VarName) (v : List Num) : Rel (setVar f v) (setVar f v) := by
  refine Rel.read fun r r' h => ?_
  have : f.size r' = f.size r := by cases f <;> simp [VarName.size, h.n, h.ne]
  rw [this]
  exact rel_setSized _ _ _

theorem rel_setParDYN (v : List Num) : Rel (setParDYN v) (setParDYN v) := by
  refine Rel.read fun r r' h => ?_
  rw [h.n]; exact rel_setSized _ _ _
theorem rel_setParREG (v : List Num) : Rel (setParREG v) (setParREG v) := by
  refine Rel.read fun r r' h => ?_
  rw [h.n]; exact rel_setSized _ _ _

theorem rel_getArg (k : String) : Rel (getArg k) (getArg k) :=
  Rel.bind (Rel.touch k) fun _ => Rel.read fun r r' h => by rw [h.argF]; exact Rel.pure _

theorem rel_getPar10 (k : String) : Rel (getPar10 k) (getPar10 k) :=
  Rel.bind (Rel.touch k) fun _ => Rel.read fun r r' h => by rw [h.argF, h.n]; exact Rel.ofIdx _

theorem rel_updateDYN : Rel updateDYN updateDYN :=
  Rel.bind (rel_getPar10 _) fun _ => Rel.read fun r r' h => by
    rw [h.n]; exact Rel.bind (rel_setParDYN _) fun _ => Rel.pure _
theorem rel_updateREG : Rel updateREG updateREG :=
  Rel.bind (rel_getPar10 _) fun _ => Rel.read fun r r' h => by
    rw [h.n]; exact Rel.bind (rel_setParREG _) fun _ => Rel.pure _

theorem rel_withLoc (b : Act Loc Unit) (l : Loc) : Rel (withLoc b l) (withLoc b l) := by
  intro r r' h
  unfold withLoc
  cases b l
  · exact ⟨rfl, h⟩
  · exact ⟨rfl, h⟩
  · exact h
  · trivial

theorem confJoints_sim {r r' : Robot} (h : Sim r r') (i : ℕ) (l : List (Option String × Yaml)) :
    confJoints r' i l = confJoints r i l := by
  induction l generalizing i with
  | nil => rfl
  | cons p l ih =>
    obtain ⟨key, nd⟩ := p
    simp only [confJoints, h.ne, h.kOrd, h.dOrd, h.dmOrd, ih]

theorem confBody_sim {r r' : Robot} (h : Sim r r') (f : Option Yaml) : confBody r' f = confBody r f := by
  simp only [confBody, h.n, h.dlOrd, h.elastic, confJoints_sim h]

theorem locInit_sim {r r' : Robot} (h : Sim r r') : Loc.init r' = Loc.init r := by
  simp only [Loc.init, h.n, h.ne, h.dlOrd, h.kOrd, h.dOrd, h.dmOrd]

theorem kOrd_set (r : Robot) (k : String) (v : List Num) : (r.setArgs k v).kOrd = r.kOrd := rfl
theorem dOrd_set (r : Robot) (k : String) (v : List Num) : (r.setArgs k v).dOrd = r.dOrd := rfl
theorem dlOrd_set (r : Robot) (k : String) (v : List Num) : (r.setArgs k v).dlOrd = r.dlOrd := rfl
theorem dmOrd_set (r : Robot) (k : String) (v : List Num) : (r.setArgs k v).dmOrd = r.dmOrd := rfl
theorem elastic_set (r : Robot) (k : String) (v : List Num) : (r.setArgs k v).elastic = r.elastic := rfl

theorem Sim.setIf {r r' : Robot} (h : Sim r r') {c c' : Prop} [Decidable c] [Decidable c'] (hc : c ↔ c') (k : String) (v : List Num) :
    Sim (if c then r.setArgs k v else r) (if c' then r'.setArgs k v else r') := by
  by_cases h1 : c
  · rw [if_pos h1, if_pos (hc.1 h1)]; exact h.setArgs k v
  · rw [if_neg h1, if_neg (fun h2 => h1 (hc.2 h2))]; exact h

theorem Sim.setWhen {r r' : Robot} (h : Sim r r') (c : Prop) [Decidable c] (k : String) (v : List Num) :
    Sim (setWhen c k v r) (setWhen c k v r') := h.setIf Iff.rfl k v

theorem sim_storeConf (l : Loc) {r r' : Robot} (h : Sim r r') : Sim (storeConf l r) (storeConf l r') := by
  unfold storeConf
  rw [h.elastic, h.dmOrd, h.dOrd, h.kOrd, h.dlOrd]
  exact (((((h.setArgs "par_DYN" l.p).setWhen _ "par_Dl" l.dl).setWhen _ "par_K" l.k).setWhen _ "par_D" l.d).setWhen _ "par_Dm" l.dm).setWhen
    _ "par_Mm" l.mm

theorem rel_loadConfPar (f : Option Yaml) (u : Bool) : Rel (loadConfPar f u) (loadConfPar f u) := by
  refine Rel.read fun r r' h => ?_
  rw [confBody_sim h, locInit_sim h, show LocSizes r' = LocSizes r by rw [h.eq]; rfl]
  refine Rel.bind (Rel.ofExc _) fun _ => Rel.bind (rel_withLoc _ _) fun l => Rel.bind (Rel.modify fun a b hab => sim_storeConf l hab) fun _ => ?_
  exact Rel.ite (Rel.bind rel_updateREG fun _ => Rel.pure _) (Rel.pure _)

theorem rel_loadParREG (f : Option Yaml) (u : Bool) : Rel (loadParREG f u) (loadParREG f u) := by
  refine Rel.read fun r r' h => ?_
  have : regBody r' f = regBody r f := by simp only [regBody, h.n, h.dlOrd]
  rw [this, locInit_sim h, show DlSize r' = DlSize r by rw [h.eq]; rfl]
  refine Rel.bind (Rel.ofExc _) fun _ => Rel.bind (rel_withLoc _ _) fun l => Rel.bind (Rel.modify fun a b hab => hab.setArgs _ _) fun _ =>
    Rel.bind (Rel.modify fun a b hab => hab.setIf (by rw [hab.dlOrd]) _ _) fun _ => ?_
  exact Rel.ite (Rel.bind rel_updateDYN fun _ => Rel.pure _) (Rel.pure _)

theorem rel_loadAll (l : List (Option String × Yaml)) : Rel (loadAll l) (loadAll l) := by
  induction l with
  | nil => exact Rel.pure _
  | cons p l ih =>
    exact Rel.bind (Rel.ofYaml _) fun _ => Rel.bind (Rel.ofYaml _) fun _ => Rel.bind (Rel.touch _) fun _ =>
      Rel.bind (rel_assign _ _) fun _ => ih

theorem rel_loadSome (y : Yaml) (l : List String) : Rel (loadSome y l) (loadSome y l) := by
  induction l with
  | nil => exact Rel.pure _
  | cons p l ih =>
    exact Rel.bind (Rel.ofYaml _) fun _ => Rel.bind (Rel.touch _) fun _ => Rel.bind (rel_assign _ _) fun _ => ih

theorem rel_loadPar (f : Option Yaml) (l : List String) : Rel (loadPar f l) (loadPar f l) := by
  refine Rel.tryYaml (Rel.bind (Rel.ofYaml _) fun y => ?_) (Rel.pure _)
  exact Rel.ite (Rel.bind (rel_loadAll _) fun _ => Rel.pure _) (Rel.bind (rel_loadSome _ _) fun _ => Rel.pure _)

theorem rel_saveParREG : Rel saveParREG saveParREG :=
  Rel.bind (Rel.touch _) fun _ => Rel.read fun r r' h => by rw [h.n, h.argF]; exact Rel.ofExc _

theorem rel_saveLoop (l : List String) (y : Yaml) : Rel (saveLoop l y) (saveLoop l y) := by
  induction l generalizing y with
  | nil => exact Rel.pure _
  | cons k l ih => exact Rel.bind (rel_getArg k) fun v => ih _

/-- Changing the other members in the same way. -/
theorem Sim.update {r r' : Robot} (h : Sim r r') (m : SMap SX) (s : SMap (List ℤ)) (f : SMap CFun) (fa : SMap (List String))
    (fd : SMap String) : Sim { r with model := m, symb := s, funs := f, funArgs := fa, funDescr := fd }
      { r' with model := m, symb := s, funs := f, funArgs := fa, funDescr := fd } := by
  refine ⟨?_, h.arg⟩
  conv_lhs => rw [h.eq]

theorem rel_get (name : String) : Rel (Robot.get name) (Robot.get name) := by
  refine Rel.read fun r r' h => ?_
  rw [h.funArgs]
  cases r.funArgs.find name with
  | none => exact Rel.pure _
  | some fa =>
    dsimp only
    rw [h.funs, h.mod, h.argF]
    refine Rel.bind (Rel.modify fun a b hab => Sim.touches ?_ _) fun _ => Rel.bind (Rel.ofIdx _) fun _ =>
      Rel.bind (Rel.ofExc _) fun _ => Rel.bind (Rel.ofIdx _) fun _ => Rel.pure _
    have := hab.update (a.model.ins name (SX.zeros 0 0)) a.symb a.funs a.funArgs a.funDescr
    rw [← hab.model, ← hab.symb, ← hab.funs, ← hab.funArgs, ← hab.funDescr] at this
    rw [← hab.model]
    convert this using 1
    · rw [hab.model, hab.symb, hab.funs, hab.funArgs, hab.funDescr]

theorem rel_collect (l : List String) : Rel (collect l) (collect l) := by
  induction l with
  | nil => exact Rel.pure _
  | cons a l ih =>
    refine Rel.bind (Rel.modify fun r r' h => ?_) fun _ => Rel.read fun r r' h => ?_
    · refine ⟨?_, h.arg⟩
      conv_lhs => rw [h.eq]
    · rw [h.flags, h.mod]
      exact Rel.bind (Rel.ofIdx _) fun _ => Rel.bind ih fun _ => Rel.pure _

theorem rel_addFunction (f : String) (e : SX) (fa : List String) (d : String) (o : Bool) :
    Rel (addFunction f e fa d o) (addFunction f e fa d o) := by
  refine Rel.read fun r r' h => ?_
  have hnm : r.name = r'.name := by rw [h.eq]
  rw [h.model, hnm]
  refine Rel.ite (Rel.pure _) (Rel.bind (Rel.modify fun r r' h => ?_) fun _ => Rel.bind (rel_collect _) fun _ => Rel.bind (Rel.ofExc _) fun _ =>
    Rel.bind (Rel.modify fun r r' h => ?_) fun _ => Rel.pure _)
  · refine ⟨?_, h.arg⟩
    conv_lhs => rw [h.eq]
  · refine ⟨?_, h.arg⟩
    conv_lhs => rw [h.eq]

theorem rel_subsLoop (par : String) (i : ℕ) (l : List ℤ) : Rel (subsLoop par i l) (subsLoop par i l) := by
  induction l generalizing i with
  | nil => exact Rel.pure _
  | cons f l ih =>
    unfold subsLoop
    refine Rel.ite (Rel.read fun r r' h => ?_) (ih _)
    rw [h.argF, h.mod]
    refine Rel.bind (Rel.ofExc _) fun _ => Rel.bind (Rel.ofIdx _) fun _ => Rel.bind (Rel.ofExc _) fun _ =>
      Rel.bind (Rel.modify fun a b hab => ?_) fun _ => ih _
    have h1 := hab.touchArg par
    refine ⟨?_, h1.arg⟩
    conv_lhs => rw [hab.eq]

theorem rel_subsSymb (par : String) : Rel (subsSymb par) (subsSymb par) := by
  refine Rel.read fun r r' h => ?_
  rw [h.flags]
  refine Rel.bind (Rel.modify fun a b hab => ?_) fun _ => rel_subsLoop _ _ _
  refine ⟨?_, hab.arg⟩
  conv_lhs => rw [hab.eq]

theorem rel_foldl {γ : Type} (g : γ → Act Robot Unit) (hg : ∀ p, Rel (g p) (g p)) (l : List γ) (x : Act Robot Unit) (hx : Rel x x) :
    Rel (l.foldl (fun a p => a >>= fun _ => g p) x) (l.foldl (fun a p => a >>= fun _ => g p) x) := by
  induction l generalizing x with
  | nil => exact hx
  | cons p l ih => exact ih _ (Rel.bind hx fun _ => hg p)

theorem rel_initSymb : Rel initSymb initSymb := by
  refine Rel.read fun r r' h => ?_
  rw [h.symb]
  exact rel_foldl (fun p : String × List ℤ => subsSymb p.1) (fun p => rel_subsSymb p.1) _ _ (Rel.pure _)

theorem rel_compact (par : String) (fl : List ℤ) : Rel (compact par fl) (compact par fl) := by
  refine Rel.read fun r r' h => ?_
  rw [h.argF, h.mod]
  refine Rel.bind (Rel.ofExc _) fun m => Rel.bind (Rel.ofExc _) fun v => Rel.modify fun a b hab => ?_
  have h1 := hab.setArgs par v
  refine ⟨?_, h1.arg⟩
  conv_lhs => rw [hab.eq]

theorem rel_updateSymb : Rel updateSymb updateSymb := by
  refine Rel.read fun r r' h => ?_
  rw [h.symb]
  exact rel_foldl (fun p : String × List ℤ => compact p.1 p.2) (fun p => rel_compact p.1 p.2) _ _ (Rel.pure _)

theorem rel_obs (f : α → Obs) {x : Act Robot α} (h : Rel x x) : Rel (obs f x) (obs f x) := Rel.bind h fun _ => Rel.pure _

/-- Every call corresponds to itself. -/
theorem rel_run (c : RCall) : Rel c.run c.run := by
  cases c with
  | get name => exact rel_obs _ (rel_get name)
  | setArg name v => exact rel_obs _ (Rel.bind (Rel.modify fun a b hab => hab.setArgs _ _) fun _ => Rel.pure _)
  | setVar f v => exact rel_obs _ (rel_setVar f v)
  | setParDYN v => exact rel_obs _ (rel_setParDYN v)
  | setParREG v => exact rel_obs _ (rel_setParREG v)
  | getArg name => exact rel_obs _ (rel_getArg name)
  | getParDYN => exact rel_obs _ (rel_getPar10 _)
  | getParREG => exact rel_obs _ (rel_getPar10 _)
  | updateDYN => exact rel_obs _ rel_updateDYN
  | updateREG => exact rel_obs _ rel_updateREG
  | loadConfPar f u => exact rel_obs _ (rel_loadConfPar f u)
  | loadParREG f u => exact rel_obs _ (rel_loadParREG f u)
  | loadPar f l => exact rel_obs _ (rel_loadPar f l)
  | saveParREG => exact rel_obs _ rel_saveParREG
  | savePar l => exact rel_obs _ (rel_saveLoop l _)
  | addFunction f e a d o => exact rel_obs _ (rel_addFunction f e a d o)
  | initSymb => exact rel_obs _ rel_initSymb
  | updateSymb => exact rel_obs _ rel_updateSymb

theorem trace_sim (cs : List RCall) {r r' : Robot} (h : Sim r r') : trace cs r' = trace cs r := by
  induction cs generalizing r r' with
  | nil => rfl
  | cons c cs ih =>
    have h1 := rel_run c r r' h
    unfold trace
    cases hx : c.run r <;> cases hy : c.run r' <;> rw [hx, hy] at h1 <;> first | exact h1.elim | skip
    · obtain ⟨rfl, h2⟩ := h1; simp only; rw [ih h2]
    · simp only; rw [ih h1]
    · simp only; rw [ih h1]

end Robot

end Thunder

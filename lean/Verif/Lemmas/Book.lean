import Verif.Lemmas.Names
import Verif.Lemmas.RobotInv
import Verif.Model.Instantiate

/-!
# The table of the CasADi functions
-/

open scoped Classical

namespace Thunder

noncomputable section

open Spec Act

/-! ## Sorted tables -/

namespace SMap

variable {α : Type}

theorem has_iff {m : SMap α} {k : String} : m.has k = true ↔ k ∈ m.map Prod.fst := by
  induction m with
  | nil => simp [has]
  | cons p t ih =>
    obtain ⟨k', v⟩ := p
    unfold has at ih ⊢
    rw [find_cons]
    split_ifs with h
    · simp [h]
    · rw [ih]
      simp [Ne.symm h]

end SMap

namespace Robot

/-! ## Invariant -/

/-- The table of functions is sorted, every function has a list of arguments and an accepted name, and the two members are as given. -/
structure Book (nm : String) (el : List ℤ) (r : Robot) : Prop where
  sorted : r.funs.Sorted
  args : ∀ f, r.funs.has f = true → r.funArgs.has f = true
  name : r.name = nm
  ela : r.isEla = el
  valid : ∀ f, r.funs.has f = true → checkName (cName nm f) = true

variable {nm : String} {el : List ℤ}

theorem argInv_book : ArgInv (Book nm el) fun _ _ _ => True where
  touch _ _ h := ⟨h.sorted, h.args, h.name, h.ela, h.valid⟩
  set _ _ _ h _ := ⟨h.sorted, h.args, h.name, h.ela, h.valid⟩
  same _ _ _ _ _ := trivial

theorem keeps_of_eq {f : Robot → Robot} (hf : ∀ r, (f r).funs = r.funs ∧ (f r).funArgs = r.funArgs ∧ (f r).name = r.name ∧ (f r).isEla = r.isEla) :
    Keeps (Book nm el) (Act.modify f) := Keeps.modify fun r h => by
  obtain ⟨h1, h2, h3, h4⟩ := hf r
  exact ⟨h1 ▸ h.sorted, by rw [h1, h2]; exact h.args, h3.trans h.name, h4.trans h.ela, by rw [h1]; exact h.valid⟩

theorem keeps_add (f : String) (e : SX) (a : List String) (d : String) (o : Bool) : Keeps (Book nm el) (addFunction f e a d o) := by
  -- the name is in the list of arguments from the first assignment on
  have hI : Keeps (fun r => Book nm el r ∧ r.funArgs.has f = true) (collect a) := by
    induction a with
    | nil => exact Keeps.pure _
    | cons b l ih =>
      exact (Keeps.modify fun r hr => ⟨⟨hr.1.sorted, hr.1.args, hr.1.name, hr.1.ela, hr.1.valid⟩, hr.2⟩).bind fun _ => Keeps.read fun r =>
        (Keeps.ofIdx _).bind fun _ => Keeps.bind ih fun _ => Keeps.pure _
  have hrest : Keeps (fun r => Book nm el r ∧ r.funArgs.has f = true) (do
      let inputs ← collect a
      let fn ← ofExc (mkFun (cName nm f) inputs e)
      modify fun r => { r with funs := r.funs.put f fn }
      pure (1 : ℤ)) := by
    refine hI.bind fun x => ?_
    by_cases hc : checkName (cName nm f) = true
    · refine (Keeps.ofExc _).bind fun fn => (Keeps.modify fun r hr => ⟨⟨hr.1.sorted.put _ _, fun g hg => ?_, hr.1.name, hr.1.ela, fun g hg => ?_⟩, hr.2⟩).bind
        fun _ => Keeps.pure _
      · rcases (has_put _ _ _ _).1 hg with rfl | hg
        · exact hr.2
        · exact hr.1.args g hg
      · rcases (has_put _ _ _ _).1 hg with rfl | hg
        · exact hc
        · exact hr.1.valid g hg
    · rw [show mkFun (cName nm f) x e = none from if_neg hc]
      exact fun r hr => hr
  refine Keeps.readI fun r hr => ?_
  rw [hr.name]
  split_ifs
  · exact hr
  rw [bind_ok (modify_run _ _)]
  have := hrest { r with model := r.model.put f e, funArgs := r.funArgs.put f a, funDescr := r.funDescr.put f d }
    ⟨⟨hr.sorted, fun g hg => (has_put _ _ _ _).2 (.inr (hr.args g hg)), hr.name, hr.ela, hr.valid⟩, (has_put _ _ _ _).2 (.inl rfl)⟩
  revert this
  generalize (do
      let inputs ← collect a
      let fn ← ofExc (mkFun (cName nm f) inputs e)
      modify fun r => { r with funs := r.funs.put f fn }
      pure (1 : ℤ)) { r with model := r.model.put f e, funArgs := r.funArgs.put f a, funDescr := r.funDescr.put f d } = x
  intro hx
  cases x
  · exact hx.1
  · exact hx.1
  · exact hx.1
  · trivial

theorem keeps_initSymb : Keeps (Book nm el) Robot.initSymb := by
  refine Keeps.read fun r => Keeps.foldl (g := fun p : String × List ℤ => subsSymb p.1) (fun p => ?_) _ _ (Keeps.pure _)
  refine Keeps.read fun r => (keeps_of_eq (by intro r; exact ⟨rfl, rfl, rfl, rfl⟩)).bind fun _ => ?_
  have : ∀ (l : List ℤ) (i : ℕ), Keeps (Book nm el) (subsLoop p.1 i l) := by
    intro l
    induction l with
    | nil => intro i; exact Keeps.pure _
    | cons f l ih =>
      intro i
      unfold subsLoop
      exact Keeps.ite (Keeps.read fun r => (Keeps.ofExc _).bind fun _ => (Keeps.ofIdx _).bind fun _ => (Keeps.ofExc _).bind fun A =>
        (keeps_of_eq (by intro r; exact ⟨rfl, rfl, rfl, rfl⟩)).bind fun _ => ih _) (ih _)
  exact this _ _

theorem keeps_updateSymb : Keeps (Book nm el) Robot.updateSymb := by
  refine Keeps.read fun r => Keeps.foldl (g := fun p : String × List ℤ => compact p.1 p.2) (fun p => ?_) _ _ (Keeps.pure _)
  exact Keeps.read fun r => (Keeps.ofExc _).bind fun m => (Keeps.ofExc _).bind fun v => keeps_of_eq (by intro r; exact ⟨rfl, rfl, rfl, rfl⟩)

/-- Every call keeps the invariant. -/
theorem keeps_book (c : RCall) : Keeps (Book nm el) c.run := by
  refine keeps_arg_call argInv_book (fun _ _ _ _ => trivial) c (fun name _ => ?_) (fun k v _ r h => ⟨h.sorted, h.args, h.name, h.ela, h.valid⟩)
    (fun f e a d o _ => keeps_add f e a d o) (fun _ => keeps_initSymb) (fun _ => keeps_updateSymb)
  refine Keeps.read fun r => ?_
  cases r.funArgs.find name with
  | none => exact Keeps.pure _
  | some fa =>
    refine (Keeps.modify fun r hr => ?_).bind fun _ => (Keeps.ofIdx _).bind fun _ => (Keeps.ofExc _).bind fun _ => (Keeps.ofIdx _).bind
      fun _ => Keeps.pure _
    exact keeps_touches argInv_book fa _ ⟨hr.sorted, hr.args, hr.name, hr.ela, hr.valid⟩

/-! ## `robot_from_file` -/

/-- Properties kept by adding a function and by a lookup in the table of expressions. -/
structure Closed (I : Robot → Prop) : Prop where
  add : ∀ (f : String) (e : SX) (a : List String) (d : String) (o : Bool), Keeps I (addFunction f e a d o)
  touch : ∀ s, Keeps I (touchModel s)

theorem closed_book : Closed (Book nm el) := ⟨keeps_add, fun _ => keeps_of_eq fun _ => ⟨rfl, rfl, rfl, rfl⟩⟩

variable {I : Robot → Prop}

theorem keeps_register (hI : Closed I) (g : Reg) : Keeps I (register g) :=
  Keeps.read fun _ => (Keeps.ofExc _).bind fun _ => (hI.add _ _ _ _ _).bind fun _ => Keeps.pure _

theorem keeps_registerAll (hI : Closed I) (gs : List Reg) : Keeps I (registerAll gs) := by
  induction gs with
  | nil => exact Keeps.pure _
  | cons g gs ih => exact (keeps_register hI g).bind fun _ => ih

theorem keeps_unless {a : Act Robot Unit} (s : String) (h : Keeps I a) : Keeps I (unlessHas s a) :=
  Keeps.read fun _ => Keeps.ite (Keeps.pure _) h

theorem keeps_symbolic (s : String) : Keeps I (symbolic s) := Keeps.read fun _ => Keeps.ofIdx _

theorem keeps_when (hI : Closed I) (l : List Expr) (gs : List Reg) : Keeps I (registerWhen l gs) := Keeps.ite (keeps_registerAll hI _) (Keeps.pure _)

variable [Fl]

theorem keeps_chain (hI : Closed I) : Keeps I computeChain := Keeps.read fun _ => keeps_registerAll hI _
theorem keeps_jac (hI : Closed I) : Keeps I computeJacobians :=
  (keeps_unless _ (keeps_chain hI)).bind fun _ => Keeps.read fun _ => keeps_registerAll hI _
theorem keeps_kinAdv (hI : Closed I) : Keeps I computeKinAdv :=
  (keeps_unless _ (keeps_chain hI)).bind fun _ => (keeps_unless _ (keeps_jac hI)).bind fun _ => Keeps.read fun _ => keeps_registerAll hI _
theorem keeps_kin (hI : Closed I) : Keeps I computeKinematics := (keeps_chain hI).bind fun _ => (keeps_jac hI).bind fun _ => keeps_kinAdv hI
theorem keeps_mcg (hI : Closed I) : Keeps I computeMCG := (keeps_unless _ (keeps_chain hI)).bind fun _ => Keeps.read fun _ => keeps_registerAll hI _
omit [Fl] in
theorem keeps_dl (hI : Closed I) : Keeps I computeDl := Keeps.read fun _ => Keeps.ite (keeps_registerAll hI _) (Keeps.pure _)
omit [Fl] in
theorem keeps_ela (hI : Closed I) : Keeps I computeElastic :=
  Keeps.read fun _ => Keeps.ite ((Keeps.ofExc _).bind fun _ => keeps_registerAll hI _) (Keeps.pure _)
theorem keeps_dynDer (hI : Closed I) : Keeps I computeDynDer := (keeps_unless _ (keeps_mcg hI)).bind fun _ => Keeps.read fun _ => keeps_registerAll hI _
theorem keeps_dyn (hI : Closed I) : Keeps I computeDynamics :=
  (keeps_mcg hI).bind fun _ => (keeps_dl hI).bind fun _ => (keeps_ela hI).bind fun _ => keeps_dynDer hI
theorem keeps_yr (hI : Closed I) : Keeps I computeYr :=
  (keeps_unless _ (keeps_chain hI)).bind fun _ => (keeps_unless _ (keeps_jac hI)).bind fun _ => Keeps.read fun _ => keeps_registerAll hI _
theorem keeps_regJ (hI : Closed I) : Keeps I computeRegJ :=
  (keeps_unless _ (keeps_chain hI)).bind fun _ => (keeps_unless _ (keeps_jac hI)).bind fun _ => (keeps_symbolic _).bind fun _ =>
    (keeps_symbolic _).bind fun _ => (keeps_symbolic _).bind fun _ => Keeps.read fun _ => keeps_when hI _ _
omit [Fl] in
theorem keeps_regDl (hI : Closed I) : Keeps I computeRegDl :=
  (keeps_unless _ (keeps_dl hI)).bind fun _ => (keeps_symbolic _).bind fun _ => Keeps.read fun _ => keeps_when hI _ _
omit [Fl] in
theorem keeps_regEla (hI : Closed I) : Keeps I computeRegElastic :=
  (keeps_unless _ (keeps_ela hI)).bind fun _ => (hI.touch _).bind fun _ => (hI.touch _).bind fun _ => (hI.touch _).bind fun _ =>
    (hI.touch _).bind fun _ => (keeps_symbolic _).bind fun _ => (keeps_symbolic _).bind fun _ => (keeps_symbolic _).bind fun _ =>
    (keeps_symbolic _).bind fun _ => Keeps.read fun _ => (keeps_when hI _ _).bind fun _ => (keeps_when hI _ _).bind fun _ =>
    (keeps_when hI _ _).bind fun _ => keeps_when hI _ _
theorem keeps_regs (hI : Closed I) : Keeps I computeRegressors := by
  refine Keeps.read fun r => (keeps_yr hI).bind fun _ => (keeps_regJ hI).bind fun _ => ?_
  have h2 : Keeps I (if r.elastic then computeRegElastic else pure ()) := Keeps.ite (keeps_regEla hI) (Keeps.pure _)
  exact Keeps.ite ((keeps_regDl hI).bind fun _ => h2) h2

theorem fromFile_book {c : Conf} {y : Yaml} (h : Describes y c) (name : String) {r : Robot} (e : robotFromFile name (some y) true = .ok r) :
    Book name (robotOf c).isEla r := by
  have hcon : constructFile (some y) = .ok (robotOf c) := construct_ok h
  unfold robotFromFile at e
  rw [hcon] at e
  dsimp only at e
  have h0 : Book name (robotOf c).isEla { robotOf c with name := name } := by
    refine ⟨List.Pairwise.nil, fun f hf => ?_, rfl, rfl, fun f hf => ?_⟩
    · cases hf
    · cases hf
  have hk : Keeps (Book name (robotOf c).isEla) (do
      let _ ← loadConfPar (some y) true
      if true then do
        initSymb
        computeKinematics
        computeDynamics
        computeRegressors
        computeUserDefined
        updateSymb
      else pure ()) := by
    refine (keeps_loadConfPar argInv_book (fun _ _ _ _ => trivial) _ _).bind fun _ => Keeps.ite ?_ (Keeps.pure _)
    exact keeps_initSymb.bind fun _ => (keeps_kin closed_book).bind fun _ => (keeps_dyn closed_book).bind fun _ => (keeps_regs closed_book).bind fun _ =>
      (Keeps.pure _).bind fun _ => keeps_updateSymb
  have hf : Res.Post (Book name (robotOf c).isEla) (fillRobot name (some y) true (robotOf c)) := by
    unfold fillRobot
    rw [bind_ok (modify_run _ _)]
    exact hk _ h0
  revert hf e
  cases fillRobot name (some y) true (robotOf c) with
  | ok u r' =>
    intro e hf
    have : r' = r := by simpa using e
    exact this ▸ hf
  | yaml r' => intro e; cases e
  | exc r' => intro e; cases e
  | ub => intro e; cases e

omit [Fl] in
theorem length_isEla (c : Conf) : (robotOf c).isEla.length = c.n := by
  simp [robotOf, Conf.n]

/-! ## `get_functions` -/

omit [Fl] in
theorem getFunctions_run (r : Robot) : ∃ r', getFunctions r =
    .ok (r.funs.map fun p => (⟨p.1, r.funDescr.get p.1 "", r.funArgs.get p.1 [], (r.mod p.1).rows, (r.mod p.1).cols⟩ : FunObj)) r' := by
  have : ∀ (l : SMap CFun) (s : Robot), (∀ k, s.funDescr.get k "" = r.funDescr.get k "") → (∀ k, s.funArgs.get k [] = r.funArgs.get k []) →
      (∀ k, s.mod k = r.mod k) → ∃ r', functionsLoop l s =
      .ok (l.map fun p => (⟨p.1, r.funDescr.get p.1 "", r.funArgs.get p.1 [], (r.mod p.1).rows, (r.mod p.1).cols⟩ : FunObj)) r' := by
    intro l
    induction l with
    | nil => intro s _ _ _; exact ⟨s, rfl⟩
    | cons p l ih =>
      intro s h1 h2 h3
      obtain ⟨s', hs'⟩ : ∃ s' : Robot, s' = { s with funDescr := s.funDescr.ins p.1 "", funArgs := s.funArgs.ins p.1 [], model := s.model.ins p.1 (SX.zeros 0 0) } :=
        ⟨_, rfl⟩
      have e1 : ∀ k, s'.funDescr.get k "" = r.funDescr.get k "" := fun k => by rw [hs']; exact (SMap.get_ins_default _ _ _ _).trans (h1 k)
      have e2 : ∀ k, s'.funArgs.get k [] = r.funArgs.get k [] := fun k => by rw [hs']; exact (SMap.get_ins_default _ _ _ _).trans (h2 k)
      have e3 : ∀ k, s'.mod k = r.mod k := fun k => by rw [hs']; exact (SMap.get_ins_default _ _ _ _).trans (h3 k)
      obtain ⟨r', e⟩ := ih s' e1 e2 e3
      refine ⟨r', ?_⟩
      unfold functionsLoop
      rw [bind_ok (modify_run _ _), ← hs', bind_ok (read_run _), bind_ok e, e1, e2, e3]
      rfl
  obtain ⟨r', e⟩ := this r.funs r (fun _ => rfl) (fun _ => rfl) fun _ => rfl
  exact ⟨r', by unfold getFunctions; rw [bind_ok (read_run _)]; exact e⟩

end Robot

end

end Thunder

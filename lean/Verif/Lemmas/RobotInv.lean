import Verif.Lemmas.RobotFile

/-!
# Class `Robot`: invariants over call histories
-/

open scoped Classical

namespace Thunder.Robot

open Act Spec

variable {α β : Type}

/-- A property of the state after any outcome that leaves one. -/
def Res.Post (I : Robot → Prop) : Res Robot α → Prop
  | .ok _ r => I r
  | .yaml r => I r
  | .exc r => I r
  | .ub => True

/-- A piece of code that keeps a property. -/
def Keeps (I : Robot → Prop) (x : Act Robot α) : Prop := ∀ r, I r → Res.Post I (x r)

variable {I : Robot → Prop}

theorem Keeps.pure (a : α) : Keeps I (Pure.pure a : Act Robot α) := fun _ h => h
theorem Keeps.bind {x : Act Robot α} {f : α → Act Robot β} (hx : Keeps I x) (hf : ∀ a, Keeps I (f a)) : Keeps I (x >>= f) := by
  intro r hr
  have h := hx r hr
  rw [bind_def]
  cases e : x r <;> rw [e] at h
  · exact hf _ _ h
  · exact h
  · exact h
  · trivial
theorem Keeps.read {f : Robot → Act Robot β} (hf : ∀ r, Keeps I (f r)) : Keeps I (Act.read >>= f) := fun r hr => hf r r hr
/-- As `Keeps.read`, remembering that the property holds for the state read. -/
theorem Keeps.readI {f : Robot → Act Robot β} (hf : ∀ r, I r → Res.Post I (f r r)) : Keeps I (Act.read >>= f) := fun r hr => hf r hr
theorem Keeps.modify {f : Robot → Robot} (h : ∀ r, I r → I (f r)) : Keeps I (Act.modify f) := fun r hr => h r hr
theorem Keeps.ofYaml (o : Option α) : Keeps I (Act.ofYaml o) := fun r hr => by cases o <;> exact hr
theorem Keeps.ofExc (o : Option α) : Keeps I (Act.ofExc o) := fun r hr => by cases o <;> exact hr
theorem Keeps.ofIdx (o : Option α) : Keeps I (Act.ofIdx o) := fun r hr => by
  cases o
  · trivial
  · exact hr
theorem Keeps.ite {c : Prop} [Decidable c] {x y : Act Robot α} (h : Keeps I x) (h' : Keeps I y) : Keeps I (if c then x else y) := by
  split_ifs
  · exact h
  · exact h'
theorem Keeps.tryYaml {x h : Act Robot α} (hx : Keeps I x) (hh : Keeps I h) : Keeps I (Act.tryYaml x h) := by
  intro r hr
  have h1 := hx r hr
  unfold Act.tryYaml
  cases e : x r <;> rw [e] at h1
  · exact h1
  · exact hh _ h1
  · exact h1
  · trivial
theorem Keeps.foldl {γ : Type} {g : γ → Act Robot Unit} (hg : ∀ p, Keeps I (g p)) (l : List γ) (x : Act Robot Unit) (hx : Keeps I x) :
    Keeps I (l.foldl (fun a p => a >>= fun _ => g p) x) := by
  induction l generalizing x with
  | nil => exact hx
  | cons p l ih => exact ih _ (hx.bind fun _ => hg p)
theorem Keeps.obs (f : α → Obs) {x : Act Robot α} (h : Keeps I x) : Keeps I (obs f x) := h.bind fun _ => Keeps.pure _

theorem after_keeps {cs : List RCall} (h : ∀ c ∈ cs, Keeps I c.run) : ∀ {r r' : Robot}, I r → after cs r = some r' → I r' := by
  induction cs with
  | nil => intro r r' hr e; cases e; exact hr
  | cons c cs ih =>
    intro r r' hr e
    have h1 := h c List.mem_cons_self r hr
    unfold after at e
    cases hc : c.run r <;> rw [hc] at h1 e
    · exact ih (fun c hc => h c (List.mem_cons_of_mem _ hc)) h1 e
    · exact ih (fun c hc => h c (List.mem_cons_of_mem _ hc)) h1 e
    · exact ih (fun c hc => h c (List.mem_cons_of_mem _ hc)) h1 e
    · cases e

/-! ## Properties that survive changes of the arguments allowed by `A` -/

/-- What an invariant must satisfy to survive the calls that change only arguments: `S k v` says that `v` may be stored under `k`. -/
structure ArgInv (I : Robot → Prop) (S : Robot → String → List Num → Prop) : Prop where
  touch : ∀ r k, I r → I (r.touchArg k)
  set : ∀ r k v, I r → S r k v → I (r.setArgs k v)
  same : ∀ r k v, I r → v.length = (r.arg k).length → S r k v

variable {S : Robot → String → List Num → Prop}

theorem keeps_assign (h : ArgInv I S) (k : String) (xs : List Num) : Keeps I (assign k xs) := by
  intro r hr
  unfold assign
  rw [bind_ok (read_run r)]
  by_cases hl : xs.length ≤ (r.arg k).length
  · rw [if_pos hl, modify_run]
    exact h.set r k _ hr (h.same r k _ hr (by simp; omega))
  · rw [if_neg hl, bind_ok (modify_run _ _)]
    exact h.set r k _ hr (h.same r k _ hr (by simp; omega))

theorem keeps_touch (h : ArgInv I S) (k : String) : Keeps I (Act.modify fun r => touchArg r k) := Keeps.modify fun r hr => h.touch r k hr

theorem keeps_setSized (h : ArgInv I S) (k : String) (s : ℕ) (v : List Num) : Keeps I (setSized k s v) :=
  (keeps_touch h k).bind fun _ => Keeps.ite ((keeps_assign h k v).bind fun _ => Keeps.pure _) (Keeps.pure _)

theorem keeps_getPar10 (h : ArgInv I S) (k : String) : Keeps I (getPar10 k) :=
  (keeps_touch h k).bind fun _ => Keeps.read fun _ => Keeps.ofIdx _

theorem keeps_setParDYN (h : ArgInv I S) (v : List Num) : Keeps I (setParDYN v) := Keeps.read fun _ => keeps_setSized h _ _ _
theorem keeps_setParREG (h : ArgInv I S) (v : List Num) : Keeps I (setParREG v) := Keeps.read fun _ => keeps_setSized h _ _ _

theorem keeps_updateDYN (h : ArgInv I S) : Keeps I updateDYN :=
  (keeps_getPar10 h _).bind fun _ => Keeps.read fun _ => (keeps_setParDYN h _).bind fun _ => Keeps.pure _
theorem keeps_updateREG (h : ArgInv I S) : Keeps I updateREG :=
  (keeps_getPar10 h _).bind fun _ => Keeps.read fun _ => (keeps_setParREG h _).bind fun _ => Keeps.pure _

theorem keeps_withLoc (b : Act Loc Unit) (l : Loc) : Keeps I (withLoc b l) := by
  intro r hr
  unfold withLoc
  cases b l
  · exact hr
  · exact hr
  · exact hr
  · trivial

/-- The keys written by `load_conf_par` and `load_par_REG`. -/
def parKeys : List String := ["par_DYN", "par_REG", "par_Dl", "par_K", "par_D", "par_Dm", "par_Mm"]

theorem keeps_storeConf (h : ArgInv I S) (hp : ∀ r k v, k ∈ parKeys → S r k v) (l : Loc) (r : Robot) (hr : I r) : I (storeConf l r) := by
  have hw : ∀ (c : Prop) [Decidable c] (k : String) (v : List Num) (r : Robot), k ∈ parKeys → I r → I (setWhen c k v r) := by
    intro c _ k v r hk hr
    unfold setWhen
    split_ifs
    · exact h.set _ _ _ hr (hp _ _ _ hk)
    · exact hr
  unfold storeConf
  refine hw _ _ _ _ (by simp [parKeys]) (hw _ _ _ _ (by simp [parKeys]) (hw _ _ _ _ (by simp [parKeys]) (hw _ _ _ _ (by simp [parKeys])
    (hw _ _ _ _ (by simp [parKeys]) (h.set _ _ _ hr (hp _ _ _ (by simp [parKeys])))))))

theorem keeps_loadConfPar (h : ArgInv I S) (hp : ∀ r k v, k ∈ parKeys → S r k v) (f : Option Yaml) (u : Bool) : Keeps I (loadConfPar f u) :=
  Keeps.read fun _ => (Keeps.ofExc _).bind fun _ => (keeps_withLoc _ _).bind fun l =>
    (Keeps.modify fun r hr => keeps_storeConf h hp l r hr).bind fun _ =>
      Keeps.ite ((keeps_updateREG h).bind fun _ => Keeps.pure _) (Keeps.pure _)

theorem keeps_loadParREG (h : ArgInv I S) (hp : ∀ r k v, k ∈ parKeys → S r k v) (f : Option Yaml) (u : Bool) : Keeps I (loadParREG f u) :=
  Keeps.read fun _ => (Keeps.ofExc _).bind fun _ => (keeps_withLoc _ _).bind fun l =>
    (Keeps.modify fun r hr => h.set r _ _ hr (hp _ _ _ (by simp [parKeys]))).bind fun _ =>
    (Keeps.modify fun r hr => by
      split_ifs
      · exact h.set r _ _ hr (hp _ _ _ (by simp [parKeys]))
      · exact hr).bind fun _ =>
      Keeps.ite ((keeps_updateDYN h).bind fun _ => Keeps.pure _) (Keeps.pure _)

theorem keeps_loadAll (h : ArgInv I S) (l : List (Option String × Yaml)) : Keeps I (loadAll l) := by
  induction l with
  | nil => exact Keeps.pure _
  | cons p l ih =>
    exact (Keeps.ofYaml _).bind fun _ => (Keeps.ofYaml _).bind fun k => (keeps_touch h k).bind fun _ => (keeps_assign h k _).bind fun _ => ih
theorem keeps_loadSome (h : ArgInv I S) (y : Yaml) (l : List String) : Keeps I (loadSome y l) := by
  induction l with
  | nil => exact Keeps.pure _
  | cons k l ih => exact (Keeps.ofYaml _).bind fun _ => (keeps_touch h k).bind fun _ => (keeps_assign h k _).bind fun _ => ih

theorem keeps_loadPar (h : ArgInv I S) (f : Option Yaml) (l : List String) : Keeps I (loadPar f l) :=
  Keeps.tryYaml ((Keeps.ofYaml _).bind fun _ => Keeps.ite ((keeps_loadAll h _).bind fun _ => Keeps.pure _)
    ((keeps_loadSome h _ _).bind fun _ => Keeps.pure _)) (Keeps.pure _)

theorem keeps_getArg (h : ArgInv I S) (k : String) : Keeps I (getArg k) := (keeps_touch h k).bind fun _ => Keeps.read fun _ => Keeps.pure _

theorem keeps_saveLoop (h : ArgInv I S) (l : List String) (y : Yaml) : Keeps I (saveLoop l y) := by
  induction l generalizing y with
  | nil => exact Keeps.pure _
  | cons k l ih => exact (keeps_getArg h k).bind fun v => ih _

theorem keeps_touches (h : ArgInv I S) (l : List String) (r : Robot) (hr : I r) : I (l.foldl touchArg r) := by
  induction l generalizing r with
  | nil => exact hr
  | cons k l ih => exact ih _ (h.touch r k hr)

/-- Calls that change only arguments. -/
theorem keeps_arg_call (h : ArgInv I S) (hp : ∀ r k v, k ∈ parKeys → S r k v) (c : RCall)
    (hg : ∀ name, c = .get name → Keeps I (Robot.get name)) (hs : ∀ k v, c = .setArg k v → ∀ r, I r → I (r.setArgs k v))
    (ha : ∀ f e a d o, c = .addFunction f e a d o → Keeps I (Robot.addFunction f e a d o)) (hi : c = .initSymb → Keeps I Robot.initSymb)
    (hu : c = .updateSymb → Keeps I Robot.updateSymb) : Keeps I c.run := by
  cases c with
  | get name => exact (hg name rfl).obs _
  | setArg name v => exact Keeps.obs _ ((Keeps.modify (hs name v rfl)).bind fun _ => Keeps.pure _)
  | setVar f v => exact Keeps.obs _ (Keeps.read fun _ => keeps_setSized h _ _ _)
  | setParDYN v => exact (keeps_setParDYN h v).obs _
  | setParREG v => exact (keeps_setParREG h v).obs _
  | getArg name => exact (keeps_getArg h name).obs _
  | getParDYN => exact (keeps_getPar10 h _).obs _
  | getParREG => exact (keeps_getPar10 h _).obs _
  | updateDYN => exact (keeps_updateDYN h).obs _
  | updateREG => exact (keeps_updateREG h).obs _
  | loadConfPar f u => exact (keeps_loadConfPar h hp f u).obs _
  | loadParREG f u => exact (keeps_loadParREG h hp f u).obs _
  | loadPar f l => exact (keeps_loadPar h f l).obs _
  | saveParREG => exact Keeps.obs _ ((keeps_touch h _).bind fun _ => Keeps.read fun _ => Keeps.ofExc _)
  | savePar l => exact (keeps_saveLoop h l _).obs _
  | addFunction f e a d o => exact (ha f e a d o rfl).obs _
  | initSymb => exact (hi rfl).obs _
  | updateSymb => exact (hu rfl).obs _

/-! ## Every registered function has an entry in `model` -/

/-- Keys of `fun_args` are keys of `model`. -/
def Registered (r : Robot) : Prop := ∀ k, r.funArgs.has k = true → r.model.has k = true

theorem has_put {γ : Type} (m : SMap γ) (k k₂ : String) (v : γ) : (m.put k v).has k₂ = true ↔ k = k₂ ∨ m.has k₂ = true := by
  unfold SMap.has; rw [SMap.find_put]; split_ifs with h <;> simp [h]
theorem has_ins {γ : Type} (m : SMap γ) (k k₂ : String) (v : γ) : (m.ins k v).has k₂ = true ↔ k = k₂ ∨ m.has k₂ = true := by
  unfold SMap.has; rw [SMap.find_ins]; split_ifs with h <;> simp [h]

theorem registered_model {r : Robot} (h : Registered r) {m : SMap SX} (hm : ∀ k, r.model.has k = true → m.has k = true) :
    Registered { r with model := m } := fun k hk => hm k (h k hk)

theorem argInv_registered : ArgInv Registered fun _ _ _ => True where
  touch _ _ h := h
  set _ _ _ h _ := h
  same _ _ _ _ _ := trivial

theorem keeps_registered (c : RCall) : Keeps Registered c.run := by
  refine keeps_arg_call argInv_registered (fun _ _ _ _ => trivial) c (fun name _ => ?_) (fun k v _ r h => h) (fun f e a d o he => ?_)
    (fun _ => ?_) (fun _ => ?_)
  · refine Keeps.read fun r => ?_
    cases r.funArgs.find name with
    | none => exact Keeps.pure _
    | some fa =>
      refine (Keeps.modify fun r hr => ?_).bind fun _ => (Keeps.ofIdx _).bind fun _ => (Keeps.ofExc _).bind fun _ => (Keeps.ofIdx _).bind
        fun _ => Keeps.pure _
      exact keeps_touches argInv_registered fa _ (registered_model hr fun k hk => (has_ins _ _ _ _).2 (.inr hk))
  · refine Keeps.read fun r => Keeps.ite (Keeps.pure _) ((Keeps.modify fun r hr => ?_).bind fun _ => Keeps.bind ?_ fun _ =>
      (Keeps.ofExc _).bind fun _ => (Keeps.modify ?_).bind fun _ => Keeps.pure _)
    · intro k hk
      rcases (has_put _ _ _ _).1 hk with h | h
      · exact (has_put _ _ _ _).2 (.inl h)
      · exact (has_put _ _ _ _).2 (.inr (hr k h))
    · clear he
      induction a with
      | nil => exact Keeps.pure _
      | cons b l ih =>
        refine (Keeps.modify fun r hr => ?_).bind fun _ => Keeps.read fun r => (Keeps.ofIdx _).bind fun _ => Keeps.bind ih fun _ => Keeps.pure _
        exact registered_model hr fun k hk => (has_ins _ _ _ _).2 (.inr hk)
    · intro r hr; exact hr
  · refine Keeps.read fun r => Keeps.foldl (g := fun p : String × List ℤ => subsSymb p.1) (fun p => ?_) _ _ (Keeps.pure _)
    refine Keeps.read fun r => (Keeps.modify (fun r hr => ?_ : ∀ r, Registered r → Registered _)).bind fun _ => ?_
    · exact hr
    have : ∀ (l : List ℤ) (i : ℕ), Keeps Registered (subsLoop p.1 i l) := by
      intro l
      induction l with
      | nil => intro i; exact Keeps.pure _
      | cons f l ih =>
        intro i
        unfold subsLoop
        refine Keeps.ite (Keeps.read fun r => (Keeps.ofExc _).bind fun _ => (Keeps.ofIdx _).bind fun _ => (Keeps.ofExc _).bind fun A =>
          (Keeps.modify fun r hr => ?_).bind fun _ => ih _) (ih _)
        exact registered_model hr fun k hk => (has_put _ _ _ _).2 (.inr hk)
    exact this _ _
  · refine Keeps.read fun r => Keeps.foldl (g := fun p : String × List ℤ => compact p.1 p.2) (fun p => ?_) _ _ (Keeps.pure _)
    refine Keeps.read fun r => (Keeps.ofExc _).bind fun m => (Keeps.ofExc _).bind fun v => Keeps.modify fun r hr => ?_
    exact registered_model hr fun k hk => (has_put _ _ _ _).2 (.inr hk)

/-! ## The size of an argument -/

/-- The argument `key` is stored with `m` entries, and all of them are marked symbolic. -/
structure SizeInv (key : String) (m : ℕ) (r : Robot) : Prop where
  has : r.args.has key = true
  len : (r.arg key).length = m
  sym : r.symb.has key = true
  flags : ∀ p ∈ r.symb, p.1 = key → p.2.length = m ∧ ∀ f ∈ p.2, f ≠ 0

theorem SizeInv.args {key : String} {m : ℕ} {r : Robot} (h : SizeInv key m r) {a : SMap (List Num)} (h1 : a.has key = true)
    (h2 : (a.get key []).length = m) : SizeInv key m { r with args := a } := ⟨h1, h2, h.sym, h.flags⟩

theorem argInv_size {key : String} {m : ℕ} : ArgInv (SizeInv key m) fun _ k v => k = key → v.length = m where
  touch r k h := by
    refine h.args ((has_ins _ _ _ _).2 (.inr h.has)) ?_
    rw [SMap.get_ins_default]; exact h.len
  set r k v h hv := by
    refine h.args ((has_put _ _ _ _).2 (.inr h.has)) ?_
    by_cases e : k = key
    · subst e; rw [SMap.get_put_same]; exact hv rfl
    · rw [SMap.get_put_ne _ _ _ e]; exact h.len
  same r k v h hv e := by rw [hv, e]; exact h.len

theorem mem_put {γ : Type} {m : SMap γ} {k : String} {v : γ} {p : String × γ} (h : p ∈ m.put k v) : p = (k, v) ∨ p ∈ m := by
  induction m with
  | nil => simpa [SMap.put] using h
  | cons q t ih =>
    obtain ⟨k', v'⟩ := q
    unfold SMap.put at h
    split_ifs at h
    · rcases List.mem_cons.mp h with h | h
      · exact .inl h
      · exact .inr (List.mem_cons_of_mem _ h)
    · rcases List.mem_cons.mp h with h | h
      · exact .inl h
      · exact .inr h
    · rcases List.mem_cons.mp h with h | h
      · rw [h]; exact .inr List.mem_cons_self
      · rcases ih h with h | h
        · exact .inl h
        · exact .inr (List.mem_cons_of_mem _ h)

theorem SizeInv.insSymb {key : String} {m : ℕ} {r : Robot} (h : SizeInv key m r) (k : String) :
    SizeInv key m { r with symb := r.symb.ins k [] } := by
  refine ⟨h.has, h.len, (has_ins _ _ _ _).2 (.inr h.sym), fun p hp e => ?_⟩
  simp only [SMap.ins] at hp
  split_ifs at hp with h1
  · exact h.flags p hp e
  · rcases mem_put hp with rfl | h2
    · simp only at e; subst e; exact absurd h.sym h1
    · exact h.flags p h2 e

theorem mapM_flatten_length {γ : Type} (l : List ℕ) (f : ℕ → Option (List γ)) (L : List (List γ)) (h : l.mapM f = some L)
    (hf : ∀ i ∈ l, ∀ x, f i = some x → x.length = 1) : L.flatten.length = l.length := by
  induction l generalizing L with
  | nil => rw [List.mapM_nil] at h; cases h; rfl
  | cons a l ih =>
    obtain ⟨b, bs, h1, h2, rfl⟩ := Wrap.mapM_cons_some h
    rw [List.flatten_cons, List.length_append, ih bs h2 (fun i hi => hf i (List.mem_cons_of_mem _ hi)), hf a List.mem_cons_self b h1,
      List.length_cons]
    omega

theorem keep_all {γ : Type} {fl : List ℤ} {g : ℕ → Option γ} {l : List γ} (h : keep fl g = some l) (hf : ∀ f ∈ fl, f ≠ 0) :
    l.length = fl.length := by
  unfold keep at h
  simp only [Option.map_eq_some_iff] at h
  obtain ⟨L, h1, rfl⟩ := h
  rw [mapM_flatten_length _ _ L h1, List.length_range]
  intro i hi x hx
  have hi' := List.mem_range.mp hi
  rw [if_neg (hf _ (by rw [List.getD_eq_getElem?_getD, List.getElem?_eq_getElem hi']; exact List.getElem_mem _))] at hx
  simp only [Option.map_eq_some_iff] at hx
  obtain ⟨y, _, rfl⟩ := hx
  rfl

theorem keeps_size {key : String} {m : ℕ} (hk : key ∉ parKeys) (c : RCall) (hc : ∀ v, c = .setArg key v → v.length = m) :
    Keeps (SizeInv key m) c.run := by
  refine keeps_arg_call argInv_size (fun _ k v h e => absurd (e ▸ h) hk) c (fun name _ => ?_) (fun k v e r h => ?_) (fun f e a d o he => ?_)
    (fun _ => ?_) (fun _ => ?_)
  · refine Keeps.read fun r => ?_
    cases r.funArgs.find name with
    | none => exact Keeps.pure _
    | some fa =>
      refine (Keeps.modify fun r hr => ?_).bind fun _ => (Keeps.ofIdx _).bind fun _ => (Keeps.ofExc _).bind fun _ => (Keeps.ofIdx _).bind
        fun _ => Keeps.pure _
      exact keeps_touches argInv_size fa _ ⟨hr.has, hr.len, hr.sym, hr.flags⟩
  · refine argInv_size.set r k v h ?_
    rintro rfl
    exact hc v e
  · refine Keeps.read fun r => Keeps.ite (Keeps.pure _) ((Keeps.modify fun r hr => ⟨hr.has, hr.len, hr.sym, hr.flags⟩).bind fun _ => Keeps.bind ?_
      fun _ => (Keeps.ofExc _).bind fun _ => (Keeps.modify fun r hr => ⟨hr.has, hr.len, hr.sym, hr.flags⟩).bind fun _ => Keeps.pure _)
    clear he
    induction a with
    | nil => exact Keeps.pure _
    | cons b l ih =>
      refine (Keeps.modify fun r hr => ?_).bind fun _ => Keeps.read fun r => (Keeps.ofIdx _).bind fun _ => Keeps.bind ih fun _ => Keeps.pure _
      have := hr.insSymb b
      exact ⟨this.has, this.len, this.sym, this.flags⟩
  · refine Keeps.read fun r => Keeps.foldl (g := fun p : String × List ℤ => subsSymb p.1) (fun p => ?_) _ _ (Keeps.pure _)
    refine Keeps.read fun r => (Keeps.modify fun r hr => hr.insSymb _).bind fun _ => ?_
    have : ∀ (l : List ℤ) (i : ℕ), Keeps (SizeInv key m) (subsLoop p.1 i l) := by
      intro l
      induction l with
      | nil => intro i; exact Keeps.pure _
      | cons f l ih =>
        intro i
        unfold subsLoop
        refine Keeps.ite (Keeps.read fun r => (Keeps.ofExc _).bind fun _ => (Keeps.ofIdx _).bind fun _ => (Keeps.ofExc _).bind fun A =>
          (Keeps.modify fun r hr => ?_).bind fun _ => ih _) (ih _)
        have := argInv_size.touch r p.1 hr
        exact ⟨this.has, this.len, this.sym, this.flags⟩
    exact this _ _
  · refine Keeps.readI fun r hr => ?_
    have hm : ∀ p ∈ r.symb, Keeps (SizeInv key m) (compact p.1 p.2) := by
      intro p hp r' hr'
      unfold compact
      rw [bind_ok (read_run r')]
      cases h1 : (keep p.2 fun i => if i < (r'.mod p.1).rows * (r'.mod p.1).cols then
        some ((r'.mod p.1).e (i % (r'.mod p.1).rows) (i / (r'.mod p.1).rows)) else none) with
      | none => rw [bind_exc (ofExc_none _)]; exact hr'
      | some mm =>
        rw [bind_ok (ofExc_some _ _)]
        cases h2 : keep p.2 fun i => (r'.arg p.1)[i]? with
        | none => rw [bind_exc (ofExc_none _)]; exact hr'
        | some v =>
          rw [bind_ok (ofExc_some _ _), modify_run]
          have := argInv_size.set r' p.1 v hr' fun e => by
            rw [keep_all h2 (hr.flags p hp e).2]; exact (hr.flags p hp e).1
          exact ⟨this.has, this.len, this.sym, this.flags⟩
    have : ∀ (l : List (String × List ℤ)) (x : Act Robot Unit), (∀ p ∈ l, p ∈ r.symb) → Keeps (SizeInv key m) x →
        Keeps (SizeInv key m) (l.foldl (fun (a : Act Robot Unit) p => a >>= fun _ => compact p.1 p.2) x) := by
      intro l
      induction l with
      | nil => intro x _ hx; exact hx
      | cons p l ih =>
        intro x hl hx
        exact ih _ (fun q hq => hl q (List.mem_cons_of_mem _ hq)) (hx.bind fun _ => hm p (hl p List.mem_cons_self))
    exact this r.symb _ (fun _ h => h) (Keeps.pure _) r hr

/-! ## The members that no call changes -/

/-- Number of joints and of elastic joints. -/
def Dims (a b : ℕ) (r : Robot) : Prop := r.n = a ∧ r.ne = b

theorem argInv_dims {a b : ℕ} : ArgInv (Dims a b) fun _ _ _ => True where
  touch _ _ h := h
  set _ _ _ h _ := h
  same _ _ _ _ _ := trivial

theorem keeps_dims {a b : ℕ} (c : RCall) : Keeps (Dims a b) c.run := by
  have hid : ∀ (f : Robot → Robot), (∀ r, (f r).n = r.n ∧ (f r).ne = r.ne) → Keeps (Dims a b) (Act.modify f) :=
    fun f hf => Keeps.modify fun r hr => ⟨(hf r).1.trans hr.1, (hf r).2.trans hr.2⟩
  refine keeps_arg_call argInv_dims (fun _ _ _ _ => trivial) c (fun name _ => ?_) (fun k v _ r h => h) (fun f e fa d o he => ?_)
    (fun _ => ?_) (fun _ => ?_)
  · refine Keeps.read fun r => ?_
    cases r.funArgs.find name with
    | none => exact Keeps.pure _
    | some fa =>
      refine (Keeps.modify fun r hr => ?_).bind fun _ => (Keeps.ofIdx _).bind fun _ => (Keeps.ofExc _).bind fun _ => (Keeps.ofIdx _).bind
        fun _ => Keeps.pure _
      exact keeps_touches argInv_dims fa _ ⟨hr.1, hr.2⟩
  · refine Keeps.read fun r => Keeps.ite (Keeps.pure _) ((hid _ (by intro r; exact ⟨rfl, rfl⟩)).bind fun _ => Keeps.bind ?_ fun _ =>
      (Keeps.ofExc _).bind fun _ => (hid _ (by intro r; exact ⟨rfl, rfl⟩)).bind fun _ => Keeps.pure _)
    clear he
    induction fa with
    | nil => exact Keeps.pure _
    | cons b l ih =>
      exact (hid _ (by intro r; exact ⟨rfl, rfl⟩)).bind fun _ => Keeps.read fun r => (Keeps.ofIdx _).bind fun _ => Keeps.bind ih fun _ => Keeps.pure _
  · refine Keeps.read fun r => Keeps.foldl (g := fun p : String × List ℤ => subsSymb p.1) (fun p => ?_) _ _ (Keeps.pure _)
    refine Keeps.read fun r => (hid _ (by intro r; exact ⟨rfl, rfl⟩)).bind fun _ => ?_
    have : ∀ (l : List ℤ) (i : ℕ), Keeps (Dims a b) (subsLoop p.1 i l) := by
      intro l
      induction l with
      | nil => intro i; exact Keeps.pure _
      | cons f l ih =>
        intro i
        unfold subsLoop
        exact Keeps.ite (Keeps.read fun r => (Keeps.ofExc _).bind fun _ => (Keeps.ofIdx _).bind fun _ => (Keeps.ofExc _).bind fun A =>
          (hid _ (by intro r; exact ⟨rfl, rfl⟩)).bind fun _ => ih _) (ih _)
    exact this _ _
  · refine Keeps.read fun r => Keeps.foldl (g := fun p : String × List ℤ => compact p.1 p.2) (fun p => ?_) _ _ (Keeps.pure _)
    exact Keeps.read fun r => (Keeps.ofExc _).bind fun m => (Keeps.ofExc _).bind fun v => hid _ (by intro r; exact ⟨rfl, rfl⟩)

end Thunder.Robot

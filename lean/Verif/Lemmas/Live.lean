import Verif.Lemmas.Names

/-!
# Calls on a robot built by `robot_from_file`
-/

open scoped Classical

namespace Thunder

noncomputable section

open Spec Act

variable {c : Conf} {r r' : Robot} {L : Set Robot.Reg}

namespace Fn

theorem sure_var (f : Fn) : ∀ k ∈ f.sure, k.isVar = true := by
  cases f <;> simp only [sure] <;> (try split_ifs) <;> decide

theorem pos_par (f : Fn) (n : ℕ) : ∀ k ∈ f.pos n, k.isVar = false := by
  cases f <;> simp only [pos] <;> (try split_ifs) <;> decide

end Fn

namespace Robot

/-- The values of the symbols according to the file. -/
def fileVal (c : Conf) (v : Var) : ℝ := if h : ∃ k : Key, k.sym = v.name then h.choose.val c v.idx else 0

theorem fileVal_key (k : Key) (i : ℕ) : fileVal c ⟨k.sym, i⟩ = k.val c i := by
  have h : ∃ k' : Key, k'.sym = k.sym := ⟨k, rfl⟩
  unfold fileVal
  rw [dif_pos h]
  simp only
  rw [Key.sym_inj h.choose_spec]

theorem kept_eq (k : Key) : kept c k = (k.vars c).map fun v => some (fileVal c v) := by
  unfold kept Key.vars
  rw [List.map_map]
  exact List.map_congr_left fun i _ => by rw [Function.comp_apply, fileVal_key]

/-- The symbol belongs to a parameter. -/
def IsPar (v : Var) : Prop := ∃ k : Key, k.isVar = false ∧ k.sym = v.name

theorem isPar_vars {k : Key} (h : k.isVar = false) {v : Var} (hv : v ∈ k.vars c) : IsPar v := ⟨k, h, (Key.mem_vars.1 hv).1.symm⟩
theorem not_isPar_vars {k : Key} (h : k.isVar = true) {v : Var} (hv : v ∈ k.vars c) : ¬ IsPar v := by
  rintro ⟨k', h', e⟩
  rw [(Key.mem_vars.1 hv).1] at e
  rw [Key.sym_inj e, h] at h'
  cases h'

/-- A robot with the functions and the parameters left by `robot_from_file`; the variables are arbitrary. -/
structure Live (c : Conf) (r : Robot) (L : Set Reg) : Prop where
  n : r.n = c.n
  ne : r.ne = c.ne
  par : ∀ k : Key, k.isVar = false → k.here c → r.arg k.str = kept c k
  reg : ∀ g ∈ L, ∃ ks, HasReg c r g ks
  only : ∀ f, r.funArgs.has f = true → ∃ g ∈ L, g.name = f

theorem Done.live (h : Done c r L) : Live c r L := ⟨h.n, h.ne, fun k _ _ => h.arg k, h.reg, h.only⟩

/-- Only the arguments that are variables change. -/
theorem Live.args (h : Live c r L) (e : r' = { r with args := r'.args }) (ha : ∀ k : Key, k.isVar = false → r'.arg k.str = r.arg k.str) : Live c r' L where
  n := by rw [e]; exact h.n
  ne := by rw [e]; exact h.ne
  par := fun k hk hh => (ha k hk).trans (h.par k hk hh)
  reg := fun g hg => by
    obtain ⟨ks, hr⟩ := h.reg g hg
    exact ⟨ks, hr.keys, hr.here, hr.nodup, hr.over, by rw [e]; exact hr.model, by rw [e]; exact hr.funArgs, by rw [e]; exact hr.funs,
      by rw [e]; exact hr.funDescr⟩
  only := fun f hf => by rw [e] at hf; exact h.only f hf

theorem Live.sim (h : Live c r L) (e : Sim r r') : Live c r' L := h.args e.eq fun _ _ => (e.arg _).symm

/-- The symbols of an input with their values. -/
def inVals (c : Conf) (r : Robot) (k : Key) : Option (List (Var × Num)) := (fitInput (k.vars c).length (r.arg k.str)).map fun v => List.zip (k.vars c) v

theorem inVals_par (h : Live c r L) {k : Key} (hk : k.isVar = false) (hh : k.here c) : inVals c r k = some ((k.vars c).map fun v => (v, some (fileVal c v))) := by
  unfold inVals
  rw [h.par k hk hh, kept_eq, fitInput, if_pos (List.length_map _), Option.map_some, List.zip_map_right]
  congr 1
  induction k.vars c with
  | nil => rfl
  | cons a l ih => simp only [List.zip_cons_cons, List.map_cons, ih]; rfl

/-- The values of the symbols during an evaluation. -/
def envOf (c : Conf) (l : List (Var × Num)) (v : Var) : ℝ := if IsPar v then fileVal c v else ((bound l v).join).getD 0

/-- The result of an evaluation. -/
def evalOf (A : SX) (c : Conf) (l : List (Var × Num)) : List Num :=
  if ∀ p ∈ l, p.2 ≠ none then A.elements.map fun e => some (e.eval (envOf c l)) else A.elements.map fun _ => none

theorem mapM_append {α β : Type} (f : α → Option β) (l l' : List α) :
    (l ++ l').mapM f = (l.mapM f).bind fun a => (l'.mapM f).map fun b => a ++ b := by
  rw [List.mapM_append]
  simp only [Option.bind_eq_bind, Option.pure_def]
  congr 1
  funext a
  cases l'.mapM f <;> rfl

theorem mapM_some {α β : Type} {f : α → Option β} {g : α → β} {l : List α} (h : ∀ a ∈ l, f a = some (g a)) : l.mapM f = some (l.map g) := by
  induction l with
  | nil => rfl
  | cons a l ih => rw [List.mapM_cons, h a List.mem_cons_self, ih fun b hb => h b (List.mem_cons_of_mem _ hb)]; rfl

theorem length_fit {k : ℕ} {v w : List Num} (h : fitInput k v = some w) : w.length = k := by
  unfold fitInput at h
  split_ifs at h with h1 h2 h3
  · rw [← Option.some.inj h, h1]
  · rw [← Option.some.inj h, List.length_replicate]
  · rw [← Option.some.inj h, List.length_replicate]

theorem mem_inVals {k : Key} {l : List (Var × Num)} (h : inVals c r k = some l) : l.map Prod.fst = k.vars c := by
  unfold inVals at h
  obtain ⟨v, hv, rfl⟩ := Option.map_eq_some_iff.1 h
  exact List.map_fst_zip (by rw [length_fit hv])

theorem mem_mapM {ks : List Key} {l : List (List (Var × Num))} (h : ks.mapM (inVals c r) = some l) : l.flatten.map Prod.fst = (ks.map (Key.vars c)).flatten := by
  induction ks generalizing l with
  | nil => cases h; rfl
  | cons k ks ih =>
    rw [List.mapM_cons] at h
    simp only [Option.bind_eq_bind, Option.pure_def, Option.bind_eq_some_iff] at h
    obtain ⟨a, ha, b, hb, h⟩ := h
    cases h
    rw [List.flatten_cons, List.map_append, ih hb, mem_inVals ha, List.map_cons, List.flatten_cons]

theorem bound_append_left {l l' : List (Var × Num)} {v : Var} (h : v ∈ l.map Prod.fst) : bound (l ++ l') v = bound l v := by
  unfold bound
  obtain ⟨p, hp, rfl⟩ := List.mem_map.1 h
  rw [List.find?_append]
  have : (l.find? fun q => q.1 == p.1).isSome := by rw [List.find?_isSome]; exact ⟨p, hp, by simp⟩
  obtain ⟨x, hx⟩ := Option.isSome_iff_exists.1 this
  rw [hx]; rfl

theorem bound_append_right {l l' : List (Var × Num)} {v : Var} (h : v ∉ l.map Prod.fst) : bound (l ++ l') v = bound l' v := by
  unfold bound
  rw [List.find?_append, List.find?_eq_none.2, Option.none_or]
  intro p hp e
  exact h (List.mem_map.2 ⟨p, hp, by simpa using e⟩)

theorem call_keys (ks : List Key) (A : SX) : CFun.call ⟨ks.map (Key.vars c), A⟩ ((ks.map Key.str).map r.arg) =
    (ks.mapM (inVals c r)).map fun l => CFun.evalWith ⟨ks.map (Key.vars c), A⟩ l.flatten := by
  have key : ∀ ks : List Key, ((List.zip (ks.map (Key.vars c)) ((ks.map Key.str).map r.arg)).mapM fun p =>
      (fitInput p.1.length p.2).map fun v => List.zip p.1 v) = ks.mapM (inVals c r) := by
    intro ks
    induction ks with
    | nil => rfl
    | cons k ks ih =>
      rw [List.map_cons, List.map_cons, List.map_cons, List.zip_cons_cons, List.mapM_cons, ih, List.mapM_cons]
      rfl
  unfold CFun.call
  rw [if_pos (by simp), key]

theorem eval_live {sure par : List Key} {A : SX} (hs : ∀ k ∈ sure, k.isVar = true) (hp : ∀ k ∈ par, k.isVar = false)
    (hA : SX.Over (keySet c (sure ++ par)) A) {l : List (List (Var × Num))} (hl : sure.mapM (inVals c r) = some l) (inp : List (List Var)) :
    CFun.evalWith ⟨inp, A⟩ (l ++ par.map fun k => (k.vars c).map fun v => (v, some (fileVal c v))).flatten = evalOf A c l.flatten := by
  have hpar : ∀ p ∈ (par.map fun k => (k.vars c).map fun v => (v, (some (fileVal c v) : Num))).flatten, p.2 = some (fileVal c p.1) ∧ IsPar p.1 := by
    intro p hq
    obtain ⟨l', hl', hq⟩ := List.mem_flatten.1 hq
    obtain ⟨k, hk, rfl⟩ := List.mem_map.1 hl'
    obtain ⟨v, hv, rfl⟩ := List.mem_map.1 hq
    exact ⟨rfl, isPar_vars (hp k hk) hv⟩
  have hfst := mem_mapM hl
  unfold CFun.evalWith evalOf
  rw [List.flatten_append]
  by_cases h : ∀ p ∈ l.flatten, p.2 ≠ none
  · rw [if_pos h, if_pos fun p hq => (List.mem_append.1 hq).elim (h p) fun hq => by rw [(hpar p hq).1]; simp]
    refine List.map_congr_left fun e he => ?_
    congr 1
    refine Expr.eval_congr fun v hv => ?_
    obtain ⟨i, _, j, _, rfl⟩ := mem_elements he
    obtain ⟨k, hk, hvk⟩ := hA i j hv
    unfold envOf
    rcases List.mem_append.1 hk with hk | hk
    · rw [if_neg (not_isPar_vars (hs k hk) hvk), bound_append_left]
      rw [hfst]
      exact mem_flatten_vars.2 ⟨k, hk, hvk⟩
    · have hv' := isPar_vars (hp k hk) hvk
      rw [if_pos hv', bound_append_right, bound_of_mem (ρ := fileVal c) fun p hq => (hpar p hq).1]
      · rfl
      · exact ⟨(v, some (fileVal c v)), List.mem_flatten.2 ⟨_, List.mem_map.2 ⟨k, hk, rfl⟩, List.mem_map.2 ⟨v, hvk, rfl⟩⟩, rfl⟩
      · rw [hfst]
        intro hm
        obtain ⟨k', hk', hv''⟩ := mem_flatten_vars.1 hm
        exact not_isPar_vars (hs k' hk') hv'' hv'
  · rw [if_neg h, if_neg fun h' => h fun p hq => h' p (List.mem_append_left _ hq)]

/-- The outcome of `get` for a function whose variable inputs are `l`. -/
def outcome (A : SX) (c : Conf) (l : Option (List (List (Var × Num)))) (r : Robot) : Res Robot Mat :=
  match l with
  | none => .exc r
  | some l => .ok ⟨A.rows, A.cols, evalOf A c l.flatten⟩ r

variable [Fl]

/-- `get` of a function of the library, for arbitrary values of the variables. -/
theorem Live.get (h : Live c r (Fn.lib c)) {f : Fn} (hf : f.Valid c) :
    ∃ r', Sim r r' ∧ Robot.get f.name r = outcome (f.expr (base c) c) c (f.sure.mapM (inVals c r)) r' := by
  obtain ⟨ks, hr⟩ := h.reg (f.reg c) ⟨f, hf, rfl⟩
  obtain ⟨sure, pos, h1, h2, hks⟩ := hr.keys
  have e1 : sure = f.sure := List.map_injective_iff.2 (fun a b e => Key.str_inj e) h1.symm
  have e2 : pos = f.pos c.n := List.map_injective_iff.2 (fun a b e => Key.str_inj e) h2.symm
  subst e1 e2
  obtain ⟨par, hpar⟩ : ∃ par, par = (f.pos c.n).filter fun k => (k.flags c).any fun v => v ≠ 0 := ⟨_, rfl⟩
  rw [← hpar] at hks
  have hp : ∀ k ∈ par, k.isVar = false := fun k hk => f.pos_par c.n k (List.mem_of_mem_filter (hpar ▸ hk))
  obtain ⟨A, hA⟩ : ∃ A, A = f.expr (base c) c := ⟨_, rfl⟩
  have hA' : (f.reg c).expr = A := hA.symm
  rw [← hA]
  have hfa : r.funArgs.find f.name = some (ks.map Key.str) := hr.funArgs
  have hfs : r.funs.find f.name = some ⟨ks.map (Key.vars c), A⟩ := by rw [← hA']; exact hr.funs
  have hmo : r.model.find f.name = some A := by rw [← hA']; exact hr.model
  have ho : SX.Over (keySet c (f.sure ++ par)) A := by rw [← hA', ← hks]; exact hr.over
  have hm : r.mod f.name = A := by simp [Robot.mod, SMap.get, hmo]
  have hins : r.model.ins f.name (SX.zeros 0 0) = r.model := by simp [SMap.ins, SMap.has, hmo]
  refine ⟨(ks.map Key.str).foldl touchArg r, sim_touches _ r, ?_⟩
  unfold Robot.get
  rw [bind_ok (read_run _), hfa]
  simp only
  rw [bind_ok (modify_run _ _), hfs, bind_ok (ofIdx_some _ _), call_keys, hins]
  have hpm : par.mapM (inVals c r) = some (par.map fun k => (k.vars c).map fun v => (v, some (fileVal c v))) := mapM_some fun k hk => inVals_par h (hp k hk) (hr.here k (by rw [hks]; exact List.mem_append_right _ hk))
  rw [hks, mapM_append, hpm]
  cases hl : f.sure.mapM (inVals c r) with
  | none => rfl
  | some l =>
    rw [Option.bind_some, Option.map_some, Option.map_some, bind_ok (ofExc_some _ _), eval_live f.sure_var hp ho hl, hm]
    have hlen : (evalOf A c l.flatten).length = A.rows * A.cols := by
      unfold evalOf
      split_ifs <;> rw [List.length_map, length_elements]
    rw [fill, if_pos hlen.le, bind_ok (ofIdx_some _ _), hlen, Nat.sub_self, List.replicate_zero, List.append_nil]
    rfl


end Robot

end

end Thunder

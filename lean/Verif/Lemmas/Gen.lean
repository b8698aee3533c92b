import Verif.Spec.Gen
import Verif.Lemmas.RegArg
import Verif.Props.Instantiate

/-!
# The command `thunder gen`: single outcomes, paths, sequences of files
-/

open scoped Classical

namespace Thunder.Gen

open Spec Text

/-! ## Programs with a single outcome -/

variable {α β : Type} {d d' : Disk}

/-- The only outcome. -/
def Det (x : Prog α) (d : Disk) (v : Res Disk α) : Prop := ∀ o, x d o ↔ o = v

theorem det_act (x : Act Disk α) : Det (Prog.act x) d (x d) := fun _ => Iff.rfl
theorem det_pure (a : α) : Det (pure a : Prog α) d (.ok a d) := fun _ => Iff.rfl

theorem det_bind {x : Prog α} {f : α → Prog β} {a : α} {v : Res Disk β} (hx : Det x d (.ok a d')) (hf : Det (f a) d' v) : Det (x >>= f) d v := by
  intro o
  constructor
  · rintro ⟨r, hr, h⟩
    obtain rfl := (hx r).1 hr
    exact (hf o).1 h
  · intro h
    exact ⟨_, (hx _).2 rfl, (hf o).2 h⟩

theorem det_act' {x : Act Disk α} {v : Res Disk α} (h : x d = v) : Det (Prog.act x) d v := h ▸ det_act x

theorem bind_ok' {x : Act Disk α} {f : α → Act Disk β} {a : α} (h : x d = .ok a d') : (x >>= f) d = f a d' := by
  rw [Act.bind_def, h]

/-! ## Paths -/

theorem dirOf_append {p f : List Char} (hp : p.getLast? = some '/') (hf : '/' ∉ f) : dirOf (p ++ f) = p := by
  obtain ⟨q, rfl⟩ : ∃ q, p = q ++ ['/'] := by
    rcases List.eq_nil_or_concat p with rfl | ⟨q, x, rfl⟩
    · simp at hp
    · refine ⟨q, ?_⟩
      simp at hp
      simp [hp]
  unfold dirOf
  have h1 : ∀ l : List Char, '/' ∉ l → (l ++ '/' :: q.reverse).dropWhile (· ≠ '/') = '/' :: q.reverse := by
    intro l
    induction l with
    | nil => intro _; simp
    | cons x l ih =>
      intro hl
      have hx : x ≠ '/' := fun e => hl (e ▸ List.mem_cons_self)
      rw [List.cons_append, List.dropWhile_cons_of_pos (by simpa using hx)]
      exact ih fun h => hl (List.mem_cons_of_mem _ h)
  have h2 : (q ++ ['/'] ++ f).reverse = f.reverse ++ '/' :: q.reverse := by simp
  rw [h2, h1 _ (by simpa using hf)]
  simp

theorem last_slash (p : List Char) : (slash p).getLast? = some '/' := by
  unfold slash
  split
  · assumption
  · simp

theorem last_out (cwd name : List Char) : (outDir cwd name).getLast? = some '/' := by
  unfold outDir
  rw [List.getLast?_append_of_ne_nil]
  · decide
  · decide

theorem join_eq {cwd s : List Char} (h : s.head? ≠ some '/') : join cwd s = slash cwd ++ s := by
  unfold join slash
  rw [if_neg h]
  split <;> simp

/-! ## Sequences of files -/

/-- Files written one after the other. -/
def Disk.writes (d : Disk) (l : List (List Char × List Char)) : Disk := l.foldl (fun d p => d.set p.1 p.2) d

@[simp] theorem dir_set (d : Disk) (p t : List Char) : (d.set p t).dir = d.dir := rfl
theorem file_set (d : Disk) (p t q : List Char) : (d.set p t).file q = if q = p then some t else d.file q := by
  simp [Disk.set, Function.update_apply]
theorem file_set_ne {d : Disk} {p t q : List Char} (h : q ≠ p) : (d.set p t).file q = d.file q := by rw [file_set, if_neg h]
@[simp] theorem file_set_same (d : Disk) (p t : List Char) : (d.set p t).file p = some t := by rw [file_set, if_pos rfl]

theorem dir_writes (l : List (List Char × List Char)) (d : Disk) : (d.writes l).dir = d.dir := by
  induction l generalizing d with
  | nil => rfl
  | cons p l ih => exact ih _

theorem writes_append (l l' : List (List Char × List Char)) : d.writes (l ++ l') = (d.writes l).writes l' := by
  simp [Disk.writes, List.foldl_append]

theorem writes_not {l : List (List Char × List Char)} {q : List Char} (h : q ∉ l.map Prod.fst) (d : Disk) : (d.writes l).file q = d.file q := by
  induction l generalizing d with
  | nil => rfl
  | cons p l ih =>
    have h1 : q ≠ p.1 := fun e => h (by simp [e])
    exact (ih (fun h' => h (by simp at h' ⊢; exact .inr h')) _).trans (file_set_ne h1)

theorem writes_mem {l : List (List Char × List Char)} {p : List Char × List Char} (hp : p ∈ l) (hn : ∀ p' ∈ l, p'.1 = p.1 → p' = p) (d : Disk) :
    (d.writes l).file p.1 = some p.2 := by
  induction l generalizing d with
  | nil => cases hp
  | cons a l ih =>
    by_cases hl : p ∈ l
    · exact ih hl (fun p' h' => hn p' (List.mem_cons_of_mem _ h')) _
    · obtain rfl : p = a := (List.mem_cons.1 hp).resolve_right hl
      refine (writes_not (l := l) (fun h => ?_) (d.set p.1 p.2)).trans (file_set_same _ _ _)
      obtain ⟨p', h1, h2⟩ := List.mem_map.1 h
      exact hl (hn p' (List.mem_cons_of_mem _ h1) h2 ▸ h1)

/-! ## The names of the files -/

def fGenH (name : List Char) : List Char := name ++ ch "_gen.h"
def fGenC (name : List Char) : List Char := name ++ ch "_gen.cpp"
def fH (name : List Char) : List Char := ch "thunder_" ++ (name ++ ch ".h")
def fC (name : List Char) : List Char := ch "thunder_" ++ (name ++ ch ".cpp")
def fConf (name : List Char) : List Char := name ++ ch "_conf.yaml"
def fReg (name : List Char) : List Char := name ++ ch "_par_REG.yaml"
def fCM : List Char := ch "CMakeLists.txt"
def fCas (f : String) : List Char := ch f ++ ch ".casadi"

/-- The last character and the length. -/
def sig (f : List Char) : Option Char × ℕ := (f.getLast?, f.length)

theorem sig_append {a b : List Char} (hb : b ≠ []) : sig (a ++ b) = (b.getLast?, a.length + b.length) := by
  unfold sig
  rw [List.getLast?_append_of_ne_nil _ hb, List.length_append]

variable (name : List Char)

theorem sig_genH : sig (fGenH name) = (some 'h', name.length + 6) := sig_append (by decide)
theorem sig_genC : sig (fGenC name) = (some 'p', name.length + 8) := sig_append (by decide)
theorem sig_h : sig (fH name) = (some 'h', name.length + 10) := by
  unfold fH
  rw [← List.append_assoc, sig_append (by decide), List.length_append]
  show (some 'h', 8 + name.length + 2) = _
  rw [Prod.mk.injEq]; exact ⟨rfl, by omega⟩
theorem sig_c : sig (fC name) = (some 'p', name.length + 12) := by
  unfold fC
  rw [← List.append_assoc, sig_append (by decide), List.length_append]
  show (some 'p', 8 + name.length + 4) = _
  rw [Prod.mk.injEq]; exact ⟨rfl, by omega⟩
theorem sig_conf : sig (fConf name) = (some 'l', name.length + 10) := sig_append (by decide)
theorem sig_reg : sig (fReg name) = (some 'l', name.length + 13) := sig_append (by decide)
theorem sig_cm : sig fCM = (some 't', 14) := by decide
theorem sig_cas (f : String) : sig (fCas f) = (some 'i', (ch f).length + 7) := sig_append (by decide)

variable {name}

theorem ne_of_sig {out f g : List Char} (h : sig f ≠ sig g) : out ++ f ≠ out ++ g := fun e => h (by rw [List.append_cancel_left e])

/-- A name without directory. -/
structure Base (name : List Char) : Prop where
  slash : '/' ∉ name
  dot : '.' ∉ name

theorem base_of {s : String} (h : RobotName s) : Base (ch s) :=
  ⟨fun hx => by rcases h.chars _ hx with h | h <;> revert h <;> decide, fun hx => by rcases h.chars _ hx with h | h <;> revert h <;> decide⟩

theorem not_mem_append {x : Char} {a b : List Char} (ha : x ∉ a) (hb : x ∉ b) : x ∉ a ++ b := fun h => (List.mem_append.1 h).elim ha hb

theorem Base.genH (h : Base name) : '/' ∉ fGenH name := not_mem_append h.slash (by decide)
theorem Base.genC (h : Base name) : '/' ∉ fGenC name := not_mem_append h.slash (by decide)
theorem Base.h (h : Base name) : '/' ∉ fH name := not_mem_append (by decide) (not_mem_append h.slash (by decide))
theorem Base.c (h : Base name) : '/' ∉ fC name := not_mem_append (by decide) (not_mem_append h.slash (by decide))
theorem Base.conf (h : Base name) : '/' ∉ fConf name := not_mem_append h.slash (by decide)
theorem Base.reg (h : Base name) : '/' ∉ fReg name := not_mem_append h.slash (by decide)
theorem slash_cm : '/' ∉ fCM := by decide

theorem genH_ne_genC : fGenH name ≠ fGenC name := fun e => by have := congrArg sig e; rw [sig_genH, sig_genC] at this; simp at this
theorem genH_ne_h : fGenH name ≠ fH name := fun e => by have := congrArg sig e; rw [sig_genH, sig_h] at this; simp at this
theorem genH_ne_c : fGenH name ≠ fC name := fun e => by have := congrArg sig e; rw [sig_genH, sig_c] at this; simp at this
theorem genH_ne_conf : fGenH name ≠ fConf name := fun e => by have := congrArg sig e; rw [sig_genH, sig_conf] at this; simp at this
theorem genH_ne_reg : fGenH name ≠ fReg name := fun e => by have := congrArg sig e; rw [sig_genH, sig_reg] at this; simp at this
theorem genH_ne_cm : fGenH name ≠ fCM := fun e => by have := congrArg sig e; rw [sig_genH, sig_cm] at this; simp at this
theorem genH_ne_cas (g : String) : fGenH name ≠ fCas g := fun e => by have := congrArg sig e; rw [sig_genH, sig_cas] at this; simp at this
theorem genC_ne_h : fGenC name ≠ fH name := fun e => by have := congrArg sig e; rw [sig_genC, sig_h] at this; simp at this
theorem genC_ne_c : fGenC name ≠ fC name := fun e => by have := congrArg sig e; rw [sig_genC, sig_c] at this; simp at this
theorem genC_ne_conf : fGenC name ≠ fConf name := fun e => by have := congrArg sig e; rw [sig_genC, sig_conf] at this; simp at this
theorem genC_ne_reg : fGenC name ≠ fReg name := fun e => by have := congrArg sig e; rw [sig_genC, sig_reg] at this; simp at this
theorem genC_ne_cm : fGenC name ≠ fCM := fun e => by have := congrArg sig e; rw [sig_genC, sig_cm] at this; simp at this
theorem genC_ne_cas (g : String) : fGenC name ≠ fCas g := fun e => by have := congrArg sig e; rw [sig_genC, sig_cas] at this; simp at this
theorem h_ne_c : fH name ≠ fC name := fun e => by have := congrArg sig e; rw [sig_h, sig_c] at this; simp at this
theorem h_ne_conf : fH name ≠ fConf name := fun e => by have := congrArg sig e; rw [sig_h, sig_conf] at this; simp at this
theorem h_ne_reg : fH name ≠ fReg name := fun e => by have := congrArg sig e; rw [sig_h, sig_reg] at this; simp at this
theorem h_ne_cm : fH name ≠ fCM := fun e => by have := congrArg sig e; rw [sig_h, sig_cm] at this; simp at this
theorem c_ne_conf : fC name ≠ fConf name := fun e => by have := congrArg sig e; rw [sig_c, sig_conf] at this; simp at this
theorem c_ne_reg : fC name ≠ fReg name := fun e => by have := congrArg sig e; rw [sig_c, sig_reg] at this; simp at this
theorem c_ne_cm : fC name ≠ fCM := fun e => by have := congrArg sig e; rw [sig_c, sig_cm] at this; simp at this
theorem conf_ne_reg : fConf name ≠ fReg name := fun e => by have := congrArg sig e; rw [sig_conf, sig_reg] at this; simp at this
theorem cas_ne_h (g : String) : fCas g ≠ fH name := fun e => by have := congrArg sig e; rw [sig_cas, sig_h] at this; simp at this
theorem cas_ne_c (g : String) : fCas g ≠ fC name := fun e => by have := congrArg sig e; rw [sig_cas, sig_c] at this; simp at this
theorem cas_ne_conf (g : String) : fCas g ≠ fConf name := fun e => by have := congrArg sig e; rw [sig_cas, sig_conf] at this; simp at this
theorem cas_ne_reg (g : String) : fCas g ≠ fReg name := fun e => by have := congrArg sig e; rw [sig_cas, sig_reg] at this; simp at this
theorem cas_ne_cm (g : String) : fCas g ≠ fCM := fun e => by have := congrArg sig e; rw [sig_cas, sig_cm] at this; simp at this
theorem cm_ne_conf : fCM ≠ fConf name := fun e => by have := congrArg sig e; rw [sig_cm, sig_conf] at this; simp at this
theorem cm_ne_reg : fCM ≠ fReg name := fun e => by have := congrArg sig e; rw [sig_cm, sig_reg] at this; simp at this

/-- A file that is not one of the two documents. -/
def Good (name f : List Char) : Prop := '/' ∉ f ∧ ¬ Document name f

theorem Base.gGenH (h : Base name) : Good name (fGenH name) := ⟨h.genH, fun e => e.elim genH_ne_conf genH_ne_reg⟩
theorem Base.gGenC (h : Base name) : Good name (fGenC name) := ⟨h.genC, fun e => e.elim genC_ne_conf genC_ne_reg⟩
theorem Base.gH (h : Base name) : Good name (fH name) := ⟨h.h, fun e => e.elim h_ne_conf h_ne_reg⟩
theorem Base.gC (h : Base name) : Good name (fC name) := ⟨h.c, fun e => e.elim c_ne_conf c_ne_reg⟩
theorem good_cm : Good name fCM := ⟨slash_cm, fun e => e.elim cm_ne_conf cm_ne_reg⟩
theorem good_cas {f : String} (h : '/' ∉ ch f) : Good name (fCas f) := ⟨not_mem_append h (by decide), fun e => e.elim (cas_ne_conf f) (cas_ne_reg f)⟩

/-- Files can be written into the directory. -/
def Open (env : Env) (name out : List Char) (D : List Char → Bool) : Prop :=
  out.getLast? = some '/' ∧ D out = true ∧ ∀ f, Good name f → env.allowed (out ++ f) = true ∧ D (out ++ f ++ ['/']) = false

variable {env : Env} {out f t : List Char}

theorem Open.writable (h : Open env name out d.dir) (hf : Good name f) : d.writable env (out ++ f) = true := by
  unfold Disk.writable
  rw [dirOf_append h.1 hf.1, h.2.1, (h.2.2 f hf).1, (h.2.2 f hf).2]
  rfl

theorem Open.stream (h : Open env name out d.dir) (hf : Good name f) : d.stream env (out ++ f) t = d.set (out ++ f) t := if_pos (h.writable hf)
theorem Open.write (h : Open env name out d.dir) (hf : Good name f) : casadiWrite env (out ++ f) t d = .ok () (d.set (out ++ f) t) := if_pos (h.writable hf)
theorem Open.copy (h : Open env name out d.dir) (hf : Good name f) {p : List Char} (hp : d.file p = some t) (hne : p ≠ out ++ f) :
    copyFile env p (out ++ f) d = .ok () (d.set (out ++ f) t) := by
  unfold copyFile
  rw [hp]
  dsimp only
  rw [h.writable hf]
  simp [hne]

theorem each_write {γ : Type} {g : γ → List Char × List Char} (l : List γ) (h : Open env name out d.dir) (hf : ∀ a ∈ l, Good name (g a).1) :
    each (fun a => casadiWrite env (out ++ (g a).1) (g a).2) l d = .ok () (d.writes (l.map fun a => (out ++ (g a).1, (g a).2))) := by
  induction l generalizing d with
  | nil => rfl
  | cons a l ih =>
    unfold each
    rw [bind_ok' (h.write (hf a List.mem_cons_self))]
    exact ih (d := d.set _ _) h fun b hb => hf b (List.mem_cons_of_mem _ hb)

/-! ## The steps -/

theorem findLastOf_eq_none {s set : List Char} (h : ∀ x ∈ s, x ∉ set) : findLastOf s set = none := findLastOf_none h

theorem splitName_eq (h : Base name) : splitName (name ++ ch "_gen") = (name ++ ch "_gen", ch ".cpp") := by
  unfold splitName
  rw [findLastOf_eq_none fun x hx hx' => ?_]
  have : x = '.' := by simpa using hx'
  subst this
  exact (not_mem_append h.dot (by decide)) hx

/-- The files written by `generate_library`. -/
def libFiles (env : Env) (r : Robot) (out name : List Char) (save : Bool) : List (List Char × List Char) :=
  [(out ++ fGenC name, env.cSource (cFunctions r)), (out ++ fGenH name, env.cHeader (cFunctions r))] ++
    if save then r.funs.map fun p => (out ++ fCas p.1, env.stored (ch r.name ++ ch "_" ++ ch p.1 ++ ch "_fun") p.2) else []

theorem generateLibrary_ok (h : Open env name out d.dir) (hn : Base name) {r : Robot} (hf : ∀ p ∈ r.funs, '/' ∉ ch p.1) (save : Bool) :
    generateLibrary env r out (name ++ ch "_gen") save d = .ok () (d.writes (libFiles env r out name save)) := by
  have e1 : out ++ (splitName (name ++ ch "_gen")).1 ++ (splitName (name ++ ch "_gen")).2 = out ++ fGenC name := by
    rw [splitName_eq hn]; simp only [List.append_assoc, fGenC]; rfl
  have e2 : out ++ (splitName (name ++ ch "_gen")).1 ++ ch ".h" = out ++ fGenH name := by
    rw [splitName_eq hn]; simp only [List.append_assoc, fGenH]; rfl
  unfold generateLibrary
  rw [e1, e2, bind_ok' (h.write hn.gGenC), bind_ok' (Open.write (d := d.set _ _) h hn.gGenH)]
  unfold libFiles
  rw [writes_append]
  cases save
  · rfl
  · rw [if_pos rfl, if_pos rfl]
    have := each_write (d := (d.set (out ++ fGenC name) (env.cSource (cFunctions r))).set (out ++ fGenH name) (env.cHeader (cFunctions r)))
      (g := fun p : String × CFun => (fCas p.1, env.stored (ch r.name ++ ch "_" ++ ch p.1 ++ ch "_fun") p.2)) r.funs h
      (fun p hp => good_cas (hf p hp))
    simp only [fCas, ← List.append_assoc] at this ⊢
    exact this

theorem template_ne {f g : List Char} (ho : out ≠ templatePath) (h : out.getLast? = some '/') (hf : '/' ∉ f) (hg : '/' ∉ g) :
    templatePath ++ f ≠ out ++ g := by
  intro e
  have h1 : dirOf (templatePath ++ f) = templatePath := dirOf_append (by decide) hf
  have h2 : dirOf (out ++ g) = out := dirOf_append h hg
  rw [e, h2] at h1
  exact ho h1

theorem path_h (out name : List Char) : out ++ ch "thunder_" ++ name ++ ch ".h" = out ++ fH name := by
  rw [List.append_assoc, List.append_assoc]; rfl
theorem path_c (out name : List Char) : out ++ ch "thunder_" ++ name ++ ch ".cpp" = out ++ fC name := by
  rw [List.append_assoc, List.append_assoc]; rfl

theorem copyTemplates_ok (h : Open env name out d.dir) (hn : Base name) (ho : out ≠ templatePath) (ht : d.dir templatePath = true)
    (h1 : d.file (templatePath ++ ch "thunder_robot.h") = some headerFile) (h2 : d.file (templatePath ++ ch "thunder_robot.cpp") = some sourceFile) :
    copyTemplates env out name d = .ok () (d.writes [(out ++ fH name, headerFile), (out ++ fC name, sourceFile)]) := by
  have e1 := path_h out name
  have e2 := path_c out name
  unfold copyTemplates
  rw [bind_ok' (show Act.read d = .ok d d from rfl), e1, e2]
  unfold templateOf
  rw [ht, if_pos rfl, if_pos rfl, bind_ok' (h.copy hn.gH h1 (template_ne ho h.1 (by decide) hn.h))]
  exact Open.copy (d := d.set _ _) h hn.gC ((file_set_ne (template_ne ho h.1 (by decide) hn.h)).trans h2) (template_ne ho h.1 (by decide) hn.c)

/-- The files written for `--python`. -/
noncomputable def pyFiles (out name t : List Char) (python : Bool) : List (List Char × List Char) :=
  if python then [(out ++ fCM, t), (out ++ fCM, repl (ch "robot") name t)] else []

theorem python_ok (h : Open env name out d.dir) (ho : out ≠ templatePath) (ht : d.dir templatePath = true) (python : Bool) {t : List Char}
    (h1 : python = true → d.file (templatePath ++ ch "CMakeLists.txt") = some t) :
    Det (pythonFiles env out name python) d (.ok 1 (d.writes (pyFiles out name t python))) := by
  unfold pythonFiles pyFiles
  cases python
  · exact det_pure _
  · rw [if_pos rfl, if_pos rfl]
    refine det_bind (det_act' (show Act.read d = .ok d d from rfl)) ?_
    unfold templateOf
    rw [ht, if_pos rfl]
    refine det_bind (det_act' (h.copy (f := fCM) good_cm (h1 rfl) (template_ne ho h.1 (by decide) slash_cm))) ?_
    intro o
    unfold updateCmake
    rw [show out ++ ch "CMakeLists.txt" = out ++ fCM from rfl, file_set_same]
    dsimp only
    have hs := Open.stream (d := d.set (out ++ fCM) t) (t := repl (ch "robot") name t) h good_cm
    constructor
    · rintro ⟨r, hr, he⟩
      rw [replaceAll_iff (by decide)] at hr
      subst hr
      rw [he, hs]
      rfl
    · intro e
      exact ⟨_, (replaceAll_iff (by decide)).2 rfl, by dsimp only; rw [e, hs]; rfl⟩

theorem change_ok (h : Open env name out d.dir) (hn : Base name) {r : Robot} {py : Bool} {hd s : List Char}
    (hi : ∀ o, Instantiate name r py o ↔ o = .ret 1 (some hd) (some s)) (h1 : d.file (out ++ fH name) = some headerFile)
    (h2 : d.file (out ++ fC name) = some sourceFile) :
    Det (changeFiles env name r (out ++ ch "thunder_" ++ name ++ ch ".h") (out ++ ch "thunder_" ++ name ++ ch ".cpp") py) d
      (.ok 1 (d.writes [(out ++ fH name, hd), (out ++ fC name, s)])) := by
  have e1 := path_h out name
  have e2 := path_c out name
  rw [e1, e2]
  intro o
  unfold changeFiles
  rw [h1, h2]
  have hst : (d.store env (out ++ fH name) (some hd)).store env (out ++ fC name) (some s) = d.writes [(out ++ fH name, hd), (out ++ fC name, s)] := by
    show Disk.stream env _ _ (Disk.stream env _ _ d) = _
    rw [h.stream hn.gH, Open.stream (d := d.set _ _) h hn.gC]
    rfl
  constructor
  · rintro ⟨c, hc, he⟩
    obtain rfl := (hi c).1 hc
    rw [he, ← hst]
  · intro e
    exact ⟨_, (hi _).2 rfl, by rw [e, ← hst]⟩

theorem save_ok {r r' : Robot} {y z : Yaml} (hz : Robot.saveParREG r = .ok z r') :
    saveFiles env r y (out ++ name ++ ch "_conf.yaml") (out ++ name ++ ch "_par_REG.yaml") d =
      .ok () ((d.stream env (out ++ fConf name) (env.emit [] y)).stream env (out ++ fReg name) (env.emit regComment z)) := by
  have e1 : out ++ name ++ ch "_conf.yaml" = out ++ fConf name := by simp only [List.append_assoc, fConf]
  have e2 : out ++ name ++ ch "_par_REG.yaml" = out ++ fReg name := by simp only [List.append_assoc, fReg]
  unfold saveFiles
  rw [e1, e2]
  refine Eq.trans (Act.bind_ok (a := ()) (Act.modify_run _ _)) ?_
  rw [hz]

/-- The directory of the generated files exists after `create_directory`. -/
def Disk.withDir (d : Disk) (out : List Char) : Disk := { d with dir := Function.update d.dir out true }

theorem create_ok (hw : Writable env d name) (hn : Base name) :
    createDirectory env (outDir env.cwd name) d = .ok () (d.withDir (outDir env.cwd name)) := by
  have hl : (outDir env.cwd name).dropLast = slash env.cwd ++ (name ++ ch "_generatedFiles") := by
    unfold outDir
    rw [show "_generatedFiles/".toList = ch "_generatedFiles" ++ ['/'] by decide, ← List.append_assoc, List.dropLast_concat, List.append_assoc]
  unfold createDirectory
  by_cases hd : d.dir (outDir env.cwd name) = true
  · rw [if_pos hd]
    unfold Disk.withDir
    rw [← hd, Function.update_eq_self]
  · rw [if_neg hd, hl, dirOf_append (last_slash _) (not_mem_append hn.slash (by decide)), ← List.append_assoc,
      show d.file (slash env.cwd ++ name ++ ch "_generatedFiles") = none from hw.free]
    have := hw.allowed [] (by simp) (fun h => by rcases h with h | h <;> simp at h)
    rw [List.append_nil] at this
    rw [this, hw.cwd]
    rfl

theorem open_out (hw : Writable env d name) : Open env name (outDir env.cwd name) (d.withDir (outDir env.cwd name)).dir := by
  refine ⟨last_out _ _, by simp [Disk.withDir], fun f hf => ⟨hw.allowed f hf.1 hf.2, ?_⟩⟩
  show Function.update d.dir (outDir env.cwd name) true _ = false
  rw [Function.update_of_ne]
  · exact hw.noDir f hf.1 hf.2
  · intro e
    have := congrArg List.length e
    simp at this

theorem out_ne (cwd name : List Char) : outDir cwd name ≠ templatePath := by
  intro e
  have h1 : (outDir cwd name).reverse.take 6 = (ch "Files/").reverse := by
    unfold outDir
    rw [List.reverse_append]
    show (ch "/seliFdetareneg_" ++ _).take 6 = _
    rw [List.take_append_of_le_length (by decide)]
    decide
  rw [e] at h1
  exact absurd h1 (by decide)

/-! ## Copies -/

/-- Some files were copied, each from a source given by `S`. -/
def Copied (S : List Char → List Char → Prop) (d d' : Disk) : Prop :=
  d'.dir = d.dir ∧ ∀ q, d'.file q = d.file q ∨ ∃ p, S p q ∧ d'.file q = d.file p

variable {S : List Char → List Char → Prop} {d₁ : Disk}

theorem copied_refl : Copied S d d := ⟨rfl, fun _ => .inl rfl⟩

/-- No destination is a source. -/
def Apart (S : List Char → List Char → Prop) : Prop := ∀ p q p', S p q → ¬ S q p'

theorem Copied.source (h : Copied S d d₁) (hS : Apart S) {p q : List Char} (hp : S p q) : d₁.file p = d.file p := by
  rcases h.2 p with h | ⟨p', h', -⟩
  · exact h
  · exact absurd hp (hS _ _ _ h')

/-- The disk after an action that does not touch it unless it copies. -/
theorem copied_each (hS : Apart S) (l : List (List Char × List Char)) (hl : ∀ p ∈ l, S p.1 p.2) (h : Copied S d d₁) :
    ∃ d₂, (each (fun p => copyFile env p.1 p.2) l d₁ = .ok () d₂ ∨ each (fun p => copyFile env p.1 p.2) l d₁ = .exc d₂) ∧ Copied S d d₂ := by
  induction l generalizing d₁ with
  | nil => exact ⟨d₁, .inl rfl, h⟩
  | cons p l ih =>
    have hp := hl p List.mem_cons_self
    unfold each
    cases hc : copyFile env p.1 p.2 d₁ with
    | ok u d₂ =>
      rw [bind_ok' hc]
      refine ih (fun p hp => hl p (List.mem_cons_of_mem _ hp)) ?_
      unfold copyFile at hc
      cases hf : d₁.file p.1 with
      | none => rw [hf] at hc; cases hc
      | some t =>
        rw [hf] at hc
        dsimp only at hc
        split at hc
        · obtain rfl : d₁.set p.2 t = d₂ := by cases hc; rfl
          refine ⟨h.1, fun q => ?_⟩
          rw [file_set]
          split
          · next e => exact .inr ⟨p.1, e ▸ hp, by rw [← h.source hS hp, hf]⟩
          · exact h.2 q
        · cases hc
    | exc d₂ =>
      rw [Act.bind_exc hc]
      refine ⟨d₂, .inr rfl, ?_⟩
      have : d₂ = d₁ := by
        unfold copyFile at hc
        cases hf : d₁.file p.1 with
        | none => rw [hf] at hc; cases hc; rfl
        | some t =>
          rw [hf] at hc
          dsimp only at hc
          split at hc
          · cases hc
          · cases hc; rfl
      exact this ▸ h
    | yaml d₂ =>
      exfalso
      unfold copyFile at hc
      cases hf : d₁.file p.1 with
      | none => rw [hf] at hc; cases hc
      | some t => rw [hf] at hc; dsimp only at hc; split at hc <;> cases hc
    | ub =>
      exfalso
      unfold copyFile at hc
      cases hf : d₁.file p.1 with
      | none => rw [hf] at hc; cases hc
      | some t => rw [hf] at hc; dsimp only at hc; split at hc <;> cases hc

/-- All copies are made when every destination can be written. -/
theorem all_each (hS : Apart S) (hf : ∀ p p' q, S p q → S p' q → p = p') (l : List (List Char × List Char)) (hl : ∀ p ∈ l, S p.1 p.2)
    (h : Copied S d d₁) (hw : ∀ p ∈ l, d.writable env p.2 = true ∧ (d.file p.1).isSome = true) :
    ∃ d₂, each (fun p => copyFile env p.1 p.2) l d₁ = .ok () d₂ ∧ Copied S d d₂ ∧ (∀ p ∈ l, d₂.file p.2 = d.file p.1) ∧
      ∀ p q, S p q → d₁.file q = d.file p → d₂.file q = d.file p := by
  induction l generalizing d₁ with
  | nil => exact ⟨d₁, rfl, h, by simp, fun _ _ _ h => h⟩
  | cons p l ih =>
    have hp := hl p List.mem_cons_self
    obtain ⟨w1, w2⟩ := hw p List.mem_cons_self
    obtain ⟨t, ht⟩ := Option.isSome_iff_exists.1 w2
    have hne : p.1 ≠ p.2 := fun e => hS p.1 p.2 p.2 hp (by rw [← e]; exact e ▸ hp)
    have hc : copyFile env p.1 p.2 d₁ = .ok () (d₁.set p.2 t) := by
      unfold copyFile
      rw [h.source hS hp, ht]
      dsimp only
      rw [show d₁.writable env p.2 = true by unfold Disk.writable at w1 ⊢; rw [h.1]; exact w1]
      simp [hne]
    have h' : Copied S d (d₁.set p.2 t) := by
      refine ⟨h.1, fun q => ?_⟩
      rw [file_set]
      split
      · next e => exact .inr ⟨p.1, e ▸ hp, ht.symm⟩
      · exact h.2 q
    unfold each
    rw [bind_ok' hc]
    obtain ⟨d₂, e₂, c₂, a₂, k₂⟩ := ih (fun p hp => hl p (List.mem_cons_of_mem _ hp)) h' fun p hp => hw p (List.mem_cons_of_mem _ hp)
    refine ⟨d₂, e₂, c₂, fun p' hp' => ?_, fun p' q hpq hq => k₂ p' q hpq ?_⟩
    · rcases List.mem_cons.1 hp' with rfl | hp'
      · exact k₂ _ _ hp (by rw [file_set_same, ht])
      · exact a₂ p' hp'
    · rw [file_set]
      split
      · next e =>
        obtain rfl := hf p' p.1 q hpq (e ▸ hp)
        exact ht.symm
      · exact hq

/-! ## The destinations of `--copy` -/

theorem takeWhile_eq_iff {P : Char → Bool} : ∀ {l w : List Char}, (∀ x ∈ w, P x = true) →
    (l.takeWhile P = w ↔ l = w ∨ ∃ x l', P x = false ∧ l = w ++ x :: l')
  | [], w, _ => by
    constructor
    · intro e; exact .inl e
    · rintro (e | ⟨x, l', -, e⟩)
      · exact e
      · exact absurd e.symm (by simp)
  | a :: l, [], _ => by
    by_cases h : P a = true
    · simp [h]
    · simp only [Bool.not_eq_true] at h
      simp [h]
  | a :: l, b :: w, hw => by
    have ih := takeWhile_eq_iff (l := l) (w := w) fun x hx => hw x (List.mem_cons_of_mem _ hx)
    by_cases h : P a = true
    · rw [List.takeWhile_cons_of_pos h, List.cons.injEq, ih]
      constructor
      · rintro ⟨rfl, rfl | ⟨x, l', hx, rfl⟩⟩
        · exact .inl rfl
        · exact .inr ⟨x, l', hx, rfl⟩
      · rintro (e | ⟨x, l', hx, e⟩)
        · obtain ⟨rfl, rfl⟩ := List.cons.inj e
          exact ⟨rfl, .inl rfl⟩
        · obtain ⟨rfl, rfl⟩ := List.cons.inj e
          exact ⟨rfl, .inr ⟨x, l', hx, rfl⟩⟩
    · have hb := hw b List.mem_cons_self
      simp only [Bool.not_eq_true] at h
      constructor
      · intro e
        simp [h] at e
      · rintro (e | ⟨x, l', hx, e⟩)
        · obtain ⟨rfl, rfl⟩ := List.cons.inj e
          rw [h] at hb; cases hb
        · obtain ⟨rfl, rfl⟩ := List.cons.inj e
          rw [h] at hb; cases hb

theorem copyRoots_eq (cwd : List Char) :
    copyRoots cwd = [copyPrefix cwd ++ ch "src/thunder_robot/", copyPrefix cwd ++ ch "src/thunder_robot_chrono/"] := by
  have key : (cwd.reverse.takeWhile (· ≠ '/')).reverse = ch "build" ↔ cwd = "build".toList ∨ "/build".toList <:+ cwd := by
    rw [List.reverse_eq_iff, takeWhile_eq_iff (by decide)]
    constructor
    · rintro (e | ⟨x, l', hx, e⟩)
      · exact .inl (by rw [List.reverse_eq_iff, List.reverse_reverse] at e; exact e)
      · refine .inr ⟨l'.reverse, ?_⟩
        obtain rfl : x = '/' := by simpa using hx
        rw [List.reverse_eq_iff] at e
        rw [e]
        simp
        rfl
    · rintro (rfl | ⟨l, rfl⟩)
      · exact .inl rfl
      · refine .inr ⟨'/', l.reverse, by decide, ?_⟩
        rw [List.reverse_append]
        rfl
  have hp : copyPrefix cwd = if cwd = "build".toList ∨ "/build".toList <:+ cwd then slash cwd ++ "../../../".toList else
      "/home/thunder_dev/thunder_dynamics/".toList := by
    unfold copyPrefix
    by_cases h : cwd = "build".toList ∨ "/build".toList <:+ cwd
    · rw [if_pos h, if_pos (key.2 h), join_eq (by decide)]
    · rw [if_neg h, if_neg fun h' => h (key.1 h')]
  unfold copyRoots
  rw [hp]

/-- The copies asked for. -/
def Copying (cwd name p q : List Char) : Prop := ∃ f, p = outDir cwd name ++ f ∧ CopiedTo cwd name f q

theorem Dest.base {f sub : List Char} (h : CopyDest name f sub) (hn : Base name) : '/' ∉ f := by
  have e1 : "thunder_".toList ++ name ++ ".h".toList = fH name := List.append_assoc _ _ _
  have e2 : "thunder_".toList ++ name ++ ".cpp".toList = fC name := List.append_assoc _ _ _
  rcases h with (rfl | rfl) | (rfl | rfl) | (rfl | rfl)
  · exact hn.genH
  · rw [e1]; exact hn.h
  · exact hn.genC
  · rw [e2]; exact hn.c
  · exact hn.conf
  · exact hn.reg

theorem Dest.last {f sub : List Char} (h : CopyDest name f sub) (root : List Char) : (root ++ sub).getLast? = some '/' := by
  rcases h with h | h | h <;> (rw [List.getLast?_append_of_ne_nil _ (by decide)]; decide)

theorem Dest.ne_out {f sub : List Char} (h : CopyDest name f sub) (root cwd n : List Char) : root ++ sub ≠ outDir cwd n := by
  intro e
  have h1 : (outDir cwd n).reverse.take 3 = ['/', 's', 'e'] := by
    unfold outDir
    rw [List.reverse_append]
    show (ch "/seliFdetareneg_" ++ _).take 3 = _
    rw [List.take_append_of_le_length (by decide)]
    decide
  rw [← e, List.reverse_append] at h1
  rcases h with h | h | h
  · rw [List.take_append_of_le_length (by decide)] at h1
    exact absurd h1 (by decide)
  · rw [List.take_append_of_le_length (by decide)] at h1
    exact absurd h1 (by decide)
  · rw [List.take_append_of_le_length (by decide)] at h1
    exact absurd h1 (by decide)

theorem apart_copying (hn : Base name) (cwd : List Char) : Apart (Copying cwd name) := by
  rintro p q p' ⟨f, rfl, root, -, sub, hs, rfl⟩ ⟨f', e, root', -, sub', hs', rfl⟩
  have h1 : dirOf (root ++ sub ++ f) = root ++ sub := dirOf_append (Dest.last hs root) (Dest.base hs hn)
  have h2 : dirOf (outDir cwd name ++ f') = outDir cwd name := dirOf_append (last_out _ _) (Dest.base hs' hn)
  rw [e, h2] at h1
  exact Dest.ne_out hs root cwd name h1.symm

theorem copying_unique (hn : Base name) (cwd : List Char) : ∀ p p' q, Copying cwd name p q → Copying cwd name p' q → p = p' := by
  rintro p p' q ⟨f, rfl, root, -, sub, hs, rfl⟩ ⟨f', rfl, root', -, sub', hs', e⟩
  have h1 : dirOf (root ++ sub ++ f) = root ++ sub := dirOf_append (Dest.last hs root) (Dest.base hs hn)
  have h2 : dirOf (root' ++ sub' ++ f') = root' ++ sub' := dirOf_append (Dest.last hs' root') (Dest.base hs' hn)
  rw [e, h2] at h1
  rw [← h1] at e
  rw [List.append_cancel_left e]

/-- The six copies below one directory. -/
def sixCopies (out name root : List Char) : List (List Char × List Char) :=
  [(out ++ name ++ ch "_gen" ++ ch ".h", root ++ ch "library/" ++ name ++ ch "_gen" ++ ch ".h"),
    (out ++ name ++ ch "_gen" ++ ch ".cpp", root ++ ch "src/" ++ name ++ ch "_gen" ++ ch ".cpp"),
    (out ++ name ++ ch "_par_REG.yaml", root ++ ch "robots/" ++ name ++ ch "_par_REG.yaml"),
    (out ++ name ++ ch "_conf.yaml", root ++ ch "robots/" ++ name ++ ch "_conf.yaml"),
    (out ++ ch "thunder_" ++ name ++ ch ".h", root ++ ch "library/" ++ ch "thunder_" ++ name ++ ch ".h"),
    (out ++ ch "thunder_" ++ name ++ ch ".cpp", root ++ ch "src/" ++ ch "thunder_" ++ name ++ ch ".cpp")]

theorem mem_six {out root : List Char} (p : List Char × List Char) :
    p ∈ sixCopies out name root ↔ ∃ f sub, CopyDest name f sub ∧ p = (out ++ f, root ++ sub ++ f) := by
  have e1 : ∀ u : List Char, u ++ name ++ ch "_gen" ++ ch ".h" = u ++ (name ++ "_gen.h".toList) := fun u => by
    rw [List.append_assoc, List.append_assoc]; rfl
  have e2 : ∀ u : List Char, u ++ name ++ ch "_gen" ++ ch ".cpp" = u ++ (name ++ "_gen.cpp".toList) := fun u => by
    rw [List.append_assoc, List.append_assoc]; rfl
  have e3 : ∀ u : List Char, u ++ name ++ ch "_par_REG.yaml" = u ++ (name ++ "_par_REG.yaml".toList) := fun u => List.append_assoc _ _ _
  have e4 : ∀ u : List Char, u ++ name ++ ch "_conf.yaml" = u ++ (name ++ "_conf.yaml".toList) := fun u => List.append_assoc _ _ _
  have e5 : ∀ u : List Char, u ++ ch "thunder_" ++ name ++ ch ".h" = u ++ ("thunder_".toList ++ name ++ ".h".toList) := fun u => by
    simp only [List.append_assoc]
  have e6 : ∀ u : List Char, u ++ ch "thunder_" ++ name ++ ch ".cpp" = u ++ ("thunder_".toList ++ name ++ ".cpp".toList) := fun u => by
    simp only [List.append_assoc]
  unfold sixCopies
  rw [e1, e1, e2, e2, e3, e3, e4, e4, e5, e5, e6, e6]
  constructor
  · intro h
    simp only [List.mem_cons, List.not_mem_nil, or_false] at h
    rcases h with rfl | rfl | rfl | rfl | rfl | rfl
    · exact ⟨_, _, .header (.inl rfl), rfl⟩
    · exact ⟨_, _, .source (.inl rfl), rfl⟩
    · exact ⟨_, _, .doc (.inr rfl), rfl⟩
    · exact ⟨_, _, .doc (.inl rfl), rfl⟩
    · exact ⟨_, _, .header (.inr rfl), rfl⟩
    · exact ⟨_, _, .source (.inr rfl), rfl⟩
  · rintro ⟨f, sub, h, rfl⟩
    simp only [List.mem_cons, List.not_mem_nil, or_false]
    rcases h with (rfl | rfl) | (rfl | rfl) | (rfl | rfl)
    · exact .inl rfl
    · exact .inr (.inr (.inr (.inr (.inl rfl))))
    · exact .inr (.inl rfl)
    · exact .inr (.inr (.inr (.inr (.inr rfl))))
    · exact .inr (.inr (.inr (.inl rfl)))
    · exact .inr (.inr (.inl rfl))

theorem copyTo_eq (env : Env) (name out root : List Char) (d : Disk) :
    copyTo env name out (root ++ ch "robots/") (root ++ ch "robots/") (root ++ ch "library/") (root ++ ch "src/") d =
      match each (fun p => copyFile env p.1 p.2) (sixCopies out name root) d with
      | .exc d' => .ok () d'
      | r => r := rfl

theorem copyTo_ok (hn : Base name) {root : List Char} (hr : root ∈ copyRoots env.cwd) (h : Copied (Copying env.cwd name) d d₁) :
    ∃ d₂, copyTo env name (outDir env.cwd name) (root ++ ch "robots/") (root ++ ch "robots/") (root ++ ch "library/") (root ++ ch "src/") d₁ = .ok () d₂ ∧
      Copied (Copying env.cwd name) d d₂ ∧ ((∀ f q, CopiedTo env.cwd name f q → d.writable env q = true ∧ (d.file (outDir env.cwd name ++ f)).isSome = true) →
        (∀ f sub, CopyDest name f sub → d₂.file (root ++ sub ++ f) = d.file (outDir env.cwd name ++ f)) ∧
        ∀ p q, Copying env.cwd name p q → d₁.file q = d.file p → d₂.file q = d.file p) := by
  have hl : ∀ p ∈ sixCopies (outDir env.cwd name) name root, Copying env.cwd name p.1 p.2 := by
    intro p hp
    obtain ⟨f, sub, hs, rfl⟩ := (mem_six p).1 hp
    exact ⟨f, rfl, root, hr, sub, hs, rfl⟩
  rw [copyTo_eq]
  by_cases hw : ∀ f q, CopiedTo env.cwd name f q → d.writable env q = true ∧ (d.file (outDir env.cwd name ++ f)).isSome = true
  · obtain ⟨d₂, e, c₂, a₂, k₂⟩ := all_each (apart_copying hn env.cwd) (copying_unique hn env.cwd) (sixCopies (outDir env.cwd name) name root) hl h (fun p hp => by
      obtain ⟨f, sub, hs, rfl⟩ := (mem_six p).1 hp
      exact hw f _ ⟨root, hr, sub, hs, rfl⟩)
    refine ⟨d₂, by rw [e], c₂, fun _ => ⟨fun f sub hs => a₂ _ ((mem_six _).2 ⟨f, sub, hs, rfl⟩), k₂⟩⟩
  · obtain ⟨d₂, e, c₂⟩ := copied_each (env := env) (apart_copying hn env.cwd) (sixCopies (outDir env.cwd name) name root) hl h
    refine ⟨d₂, ?_, c₂, fun h => absurd h hw⟩
    rcases e with e | e <;> rw [e]

theorem copies_ok (hn : Base name) (copy : Bool) (d : Disk) :
    ∃ d₂, copies env name (outDir env.cwd name) copy d = .ok () d₂ ∧ Copied (Copying env.cwd name) d d₂ ∧ (copy = false → d₂ = d) ∧
      (copy = true → (∀ f q, CopiedTo env.cwd name f q → d.writable env q = true ∧ (d.file (outDir env.cwd name ++ f)).isSome = true) →
        ∀ f q, CopiedTo env.cwd name f q → d₂.file q = d.file (outDir env.cwd name ++ f)) := by
  unfold copies
  cases copy with
  | false => exact ⟨d, rfl, copied_refl, fun _ => rfl, fun h => by cases h⟩
  | true =>
    have hroots := copyRoots_eq env.cwd
    obtain ⟨d₁, e₁, c₁, a₁⟩ := copyTo_ok (env := env) (d := d) (d₁ := d) hn (root := copyPrefix env.cwd ++ ch "src/thunder_robot/")
      (by rw [hroots]; exact List.mem_cons_self) copied_refl
    obtain ⟨d₂, e₂, c₂, a₂⟩ := copyTo_ok (env := env) (d := d) (d₁ := d₁) hn (root := copyPrefix env.cwd ++ ch "src/thunder_robot_chrono/")
      (by rw [hroots]; exact List.mem_cons_of_mem _ List.mem_cons_self) c₁
    refine ⟨d₂, ?_, c₂, fun h => absurd h (by decide), fun _ hw f q hq => ?_⟩
    · rw [if_pos rfl]
      exact (Act.bind_ok e₁).trans e₂
    · obtain ⟨b1, -⟩ := a₁ hw
      obtain ⟨b3, b4⟩ := a₂ hw
      have hq' := hq
      obtain ⟨root, hr, sub, hs, rfl⟩ := hq
      rw [hroots] at hr
      simp only [List.mem_cons, List.not_mem_nil, or_false] at hr
      rcases hr with rfl | rfl
      · exact b4 _ _ ⟨f, rfl, hq'⟩ (b1 f sub hs)
      · exact b3 f sub hs

/-! ## Which files are where -/

theorem not_lib {r : Robot} {save : Bool} {f : List Char} (h1 : f ≠ fGenC name) (h2 : f ≠ fGenH name) (h3 : ∀ g, save = true → r.funs.has g = true → f ≠ fCas g) :
    out ++ f ∉ (libFiles env r out name save).map Prod.fst := by
  intro h
  unfold libFiles at h
  rw [List.map_append, List.mem_append] at h
  rcases h with h | h
  · simp only [List.map_cons, List.map_nil, List.mem_cons, List.not_mem_nil, or_false] at h
    rcases h with h | h
    · exact h1 (List.append_cancel_left h)
    · exact h2 (List.append_cancel_left h)
  · split_ifs at h with hs
    · obtain ⟨p, hp, e⟩ := List.mem_map.1 h
      obtain ⟨q, hq, rfl⟩ := List.mem_map.1 hp
      exact h3 q.1 hs (SMap.has_iff.2 (List.mem_map.2 ⟨q, hq, rfl⟩)) (List.append_cancel_left e.symm)
    · cases h

theorem not_py {t : List Char} {py : Bool} {f : List Char} (h : py = true → f ≠ fCM) : out ++ f ∉ (pyFiles out name t py).map Prod.fst := by
  intro h'
  unfold pyFiles at h'
  split_ifs at h' with hp
  · simp only [List.map_cons, List.map_nil, List.mem_cons, List.not_mem_nil, or_false, or_self] at h'
    exact h hp (List.append_cancel_left h')
  · cases h'

theorem not_two {f g g' t t' : List Char} (h : f ≠ g) (h' : f ≠ g') : out ++ f ∉ [(out ++ g, t), (out ++ g', t')].map Prod.fst := by
  intro hm
  simp only [List.map_cons, List.map_nil, List.mem_cons, List.not_mem_nil, or_false] at hm
  rcases hm with e | e
  · exact h (List.append_cancel_left e)
  · exact h' (List.append_cancel_left e)

theorem two_fst {g g' t t' : List Char} (h : g ≠ g') (d : Disk) : (d.writes [(out ++ g, t), (out ++ g', t')]).file (out ++ g) = some t := by
  show ((d.set (out ++ g) t).set (out ++ g') t').file (out ++ g) = some t
  rw [file_set_ne fun e => h (List.append_cancel_left e), file_set_same]
theorem two_snd {g g' t t' : List Char} (d : Disk) : (d.writes [(out ++ g, t), (out ++ g', t')]).file (out ++ g') = some t' := by
  show ((d.set (out ++ g) t).set (out ++ g') t').file (out ++ g') = some t'
  rw [file_set_same]

theorem lib_genC (r : Robot) (save : Bool) (d : Disk) : (d.writes (libFiles env r out name save)).file (out ++ fGenC name) = some (env.cSource (cFunctions r)) := by
  unfold libFiles
  rw [writes_append, writes_not, two_fst (Ne.symm genH_ne_genC)]
  split_ifs
  · intro h
    obtain ⟨p, hp, e⟩ := List.mem_map.1 h
    obtain ⟨q, hq, rfl⟩ := List.mem_map.1 hp
    exact genC_ne_cas q.1 (List.append_cancel_left e.symm)
  · exact List.not_mem_nil

theorem lib_genH (r : Robot) (save : Bool) (d : Disk) : (d.writes (libFiles env r out name save)).file (out ++ fGenH name) = some (env.cHeader (cFunctions r)) := by
  unfold libFiles
  rw [writes_append, writes_not, two_snd]
  split_ifs
  · intro h
    obtain ⟨p, hp, e⟩ := List.mem_map.1 h
    obtain ⟨q, hq, rfl⟩ := List.mem_map.1 hp
    exact genH_ne_cas q.1 (List.append_cancel_left e.symm)
  · exact List.not_mem_nil

theorem lib_cas {r : Robot} (hs : r.funs.Sorted) (d : Disk) {f : String} {F : CFun} (hf : r.funs.find f = some F) :
    (d.writes (libFiles env r out name true)).file (out ++ fCas f) = some (env.stored (ch r.name ++ ch "_" ++ ch f ++ ch "_fun") F) := by
  unfold libFiles
  rw [writes_append, if_pos rfl]
  refine writes_mem (p := (out ++ fCas f, env.stored (ch r.name ++ ch "_" ++ ch f ++ ch "_fun") F)) (List.mem_map.2 ⟨(f, F), SMap.mem_of_find hf, rfl⟩)
    (fun p' hp' e => ?_) _
  obtain ⟨q, hq, rfl⟩ := List.mem_map.1 hp'
  have e1 : q.1 = f := String.toList_inj.1 (List.append_cancel_right (List.append_cancel_left e))
  have e2 : q.2 = F := by
    have := hs.find_of_mem hq
    rw [e1, hf] at this
    exact (Option.some.inj this).symm
  rw [e1, e2]

theorem py_cm (t : List Char) (d : Disk) : (d.writes (pyFiles out name t true)).file (out ++ fCM) = some (repl (ch "robot") name t) := by
  unfold pyFiles
  rw [if_pos rfl]
  exact two_snd d

end Thunder.Gen

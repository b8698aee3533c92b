import Verif.Lemmas.Gen

/-!
# Which files and directories the command `thunder gen` may change
-/

namespace Thunder.Gen

open Spec Robot Text

variable {α β : Type}

/-- The disk at the end. -/
def left : Res Disk α → Option Disk
  | .ok _ d => some d
  | .yaml d => some d
  | .exc d => some d
  | .ub => none

/-- Only files in `P` and directories in `Q` may differ. -/
def Same (P Q : List Char → Prop) (d d' : Disk) : Prop := (∀ q, ¬ P q → d'.file q = d.file q) ∧ ∀ q, ¬ Q q → d'.dir q = d.dir q

variable {P Q : List Char → Prop}

theorem Same.rfl' {d : Disk} : Same P Q d d := ⟨fun _ _ => rfl, fun _ _ => rfl⟩
theorem Same.trans {d d' d'' : Disk} (h : Same P Q d d') (h' : Same P Q d' d'') : Same P Q d d'' :=
  ⟨fun q hq => (h'.1 q hq).trans (h.1 q hq), fun q hq => (h'.2 q hq).trans (h.2 q hq)⟩

/-- A piece of code that changes nothing else. -/
def Within (P Q : List Char → Prop) (x : Prog α) : Prop := ∀ d o, x d o → ∀ d', left o = some d' → Same P Q d d'
def WithinA (P Q : List Char → Prop) (x : Act Disk α) : Prop := ∀ d d', left (x d) = some d' → Same P Q d d'

theorem WithinA.act {x : Act Disk α} (h : WithinA P Q x) : Within P Q (Prog.act x) := by
  rintro d o rfl d' hd
  exact h d d' hd
theorem within_pure (a : α) : Within P Q (pure a : Prog α) := by
  rintro d o rfl d' hd
  cases hd
  exact Same.rfl'
theorem withinA_pure (a : α) : WithinA P Q (pure a : Act Disk α) := by
  intro d d' hd
  cases hd
  exact Same.rfl'
theorem Within.bind {x : Prog α} {f : α → Prog β} (hx : Within P Q x) (hf : ∀ a, Within P Q (f a)) : Within P Q (x >>= f) := by
  rintro d o ⟨r, hr, h⟩ d' hd
  cases r with
  | ok a d₁ => exact (hx d _ hr d₁ rfl).trans (hf a d₁ o h d' hd)
  | yaml d₁ => obtain rfl : o = _ := h; cases hd; exact hx d _ hr _ rfl
  | exc d₁ => obtain rfl : o = _ := h; cases hd; exact hx d _ hr _ rfl
  | ub => obtain rfl : o = _ := h; cases hd
theorem WithinA.bind {x : Act Disk α} {f : α → Act Disk β} (hx : WithinA P Q x) (hf : ∀ a, WithinA P Q (f a)) : WithinA P Q (x >>= f) := by
  intro d d' hd
  rw [Act.bind_def] at hd
  cases e : x d with
  | ok a d₁ => rw [e] at hd; exact (hx d d₁ (by rw [e]; rfl)).trans (hf a d₁ d' hd)
  | yaml d₁ => rw [e] at hd; cases hd; exact hx d _ (by rw [e]; rfl)
  | exc d₁ => rw [e] at hd; cases hd; exact hx d _ (by rw [e]; rfl)
  | ub => rw [e] at hd; cases hd
/-- Code that does not touch the disk. -/
theorem withinA_of {x : Act Disk α} (h : ∀ d d', left (x d) = some d' → d' = d) : WithinA P Q x := fun d d' hd => h d d' hd ▸ Same.rfl'

variable {env : Env}

theorem same_set {d : Disk} {p t : List Char} (hp : P p) : Same P Q d (d.set p t) :=
  ⟨fun _ hq => file_set_ne fun e => hq (e ▸ hp), fun _ _ => rfl⟩
theorem same_stream {d : Disk} {p t : List Char} (hp : P p) : Same P Q d (d.stream env p t) := by
  unfold Disk.stream
  split
  · exact same_set hp
  · exact Same.rfl'
theorem same_store {d : Disk} {p : List Char} {t : Option (List Char)} (hp : P p) : Same P Q d (d.store env p t) := by
  cases t with
  | none => exact Same.rfl'
  | some t => exact same_stream hp
theorem within_casadi {p t : List Char} (hp : P p) : WithinA P Q (casadiWrite env p t) := by
  intro d d' hd
  unfold casadiWrite at hd
  split at hd
  · cases hd; exact same_set hp
  · split at hd <;> (cases hd; exact Same.rfl')
theorem within_copyFile {p p' : List Char} (hp : P p') : WithinA P Q (copyFile env p p') := by
  intro d d' hd
  unfold copyFile at hd
  split at hd
  · cases hd; exact Same.rfl'
  · split at hd
    · cases hd; exact same_set hp
    · cases hd; exact Same.rfl'
theorem within_each {γ : Type} {f : γ → Act Disk Unit} : ∀ {l : List γ}, (∀ a ∈ l, WithinA P Q (f a)) → WithinA P Q (each f l)
  | [], _ => withinA_pure ()
  | a :: _, h => (h a List.mem_cons_self).bind fun _ => within_each fun b hb => h b (List.mem_cons_of_mem _ hb)

/-- Files whose path begins with `p`. -/
def Under (p q : List Char) : Prop := p <+: q

theorem under {p f : List Char} : Under p (p ++ f) := ⟨f, rfl⟩
theorem under' {p f g : List Char} : Under p (p ++ f ++ g) := ⟨f ++ g, by rw [List.append_assoc]⟩
theorem under'' {p f g h : List Char} : Under p (p ++ f ++ g ++ h) := ⟨f ++ g ++ h, by rw [List.append_assoc, List.append_assoc, List.append_assoc]⟩

variable {out : List Char}

theorem within_library (r : Robot) (name : List Char) (save : Bool) (hP : ∀ q, Under out q → P q) : WithinA P Q (generateLibrary env r out name save) := by
  unfold generateLibrary
  refine (within_casadi (hP _ under')).bind fun _ => (within_casadi (hP _ under')).bind fun _ => ?_
  split
  · exact within_each fun p _ => within_casadi (hP _ under')
  · exact withinA_pure _

theorem withinA_read : WithinA P Q (Act.read : Act Disk Disk) := withinA_of fun d d' hd => by cases hd; rfl

theorem within_templates (name : List Char) (hP : ∀ q, Under out q → P q) : WithinA P Q (copyTemplates env out name) := by
  unfold copyTemplates
  exact withinA_read.bind fun d => (within_copyFile (hP _ under'')).bind fun _ => within_copyFile (hP _ under'')

theorem within_python (name : List Char) (py : Bool) (hP : ∀ q, Under out q → P q) : Within P Q (pythonFiles env out name py) := by
  unfold pythonFiles
  split
  · refine withinA_read.act.bind fun d => (within_copyFile (hP _ under)).act.bind fun _ => ?_
    intro d o ho d' hd
    unfold updateCmake at ho
    split at ho
    · subst ho; cases hd; exact Same.rfl'
    · obtain ⟨r, -, ho⟩ := ho
      cases r with
      | none => obtain rfl : o = _ := ho; cases hd; exact Same.rfl'
      | some t => obtain rfl : o = _ := ho; cases hd; exact same_stream (hP _ under)
  · exact within_pure _

theorem within_change (name : List Char) (r : Robot) {h s : List Char} (py : Bool) (hh : P h) (hs : P s) : Within P Q (changeFiles env name r h s py) := by
  rintro d o ⟨c, -, ho⟩ d' hd
  cases c with
  | ret v th ts => obtain rfl : o = _ := ho; cases hd; exact (same_store hh).trans (same_store hs)
  | exc =>
    obtain ⟨d₁, rfl, h1, h2⟩ := ho
    cases hd
    exact ⟨fun q hq => h2 q (fun e => hq (e ▸ hh)) (fun e => hq (e ▸ hs)), fun q _ => by rw [h1]⟩
  | ub => obtain rfl : o = _ := ho; cases hd

theorem within_save (r : Robot) (y : Yaml) {c g : List Char} (hc : P c) (hg : P g) : WithinA P Q (saveFiles env r y c g) := by
  unfold saveFiles
  refine WithinA.bind (fun d d' hd => ?_) fun _ => fun d d' hd => ?_
  · cases hd; exact same_stream hc
  · split at hd
    · cases hd; exact same_stream hg
    · cases hd; exact Same.rfl'
    · cases hd; exact Same.rfl'
    · cases hd

theorem within_copyTo {name root : List Char} (hP : ∀ f sub, CopyDest name f sub → P (root ++ sub ++ f)) :
    WithinA P Q (copyTo env name out (root ++ ch "robots/") (root ++ ch "robots/") (root ++ ch "library/") (root ++ ch "src/")) := by
  have key : ∀ p ∈ sixCopies out name root, P p.2 := by
    intro p hp
    obtain ⟨f, sub, hs, rfl⟩ := (mem_six (out := out) (root := root) p).1 hp
    exact hP f sub hs
  intro d d' hd
  rw [copyTo_eq] at hd
  have := within_each (P := P) (Q := Q) (f := fun p : List Char × List Char => copyFile env p.1 p.2) (l := sixCopies out name root)
    fun p hp => within_copyFile (key p hp)
  split at hd
  · next h => cases hd; exact this d _ (by rw [h]; rfl)
  · exact this d d' hd

theorem within_copies {name : List Char} (copy : Bool) (hP : copy = true → ∀ f q, CopiedTo env.cwd name f q → P q) :
    WithinA P Q (copies env name out copy) := by
  unfold copies
  split
  · next h =>
    have hr := copyRoots_eq env.cwd
    refine (within_copyTo fun f sub hs => hP h f _ ⟨_, ?_, sub, hs, rfl⟩).bind fun _ => within_copyTo fun f sub hs => hP h f _ ⟨_, ?_, sub, hs, rfl⟩
    · rw [hr]; exact List.mem_cons_self
    · rw [hr]; exact List.mem_cons_of_mem _ List.mem_cons_self
  · exact withinA_pure _

theorem within_create {p : List Char} (hp : Q p) : WithinA P Q (fun d => match createDirectory env p d with
    | .exc d' => Res.ok false d'
    | .ok _ d' => .ok true d'
    | .yaml d' => .yaml d'
    | .ub => .ub) := by
  have : WithinA P Q (createDirectory env p) := by
    intro d d' hd
    unfold createDirectory at hd
    split at hd
    · cases hd; exact Same.rfl'
    · split at hd
      · cases hd; exact Same.rfl'
      · split at hd
        · cases hd
          refine ⟨fun _ _ => rfl, fun q hq => ?_⟩
          show Function.update d.dir p true q = d.dir q
          have hne : q ≠ p := by rintro rfl; exact hq hp
          rw [Function.update_of_ne hne]
        · cases hd; exact Same.rfl'
  intro d d' hd
  dsimp only at hd
  split at hd <;> first | (next h => cases hd; exact this d _ (by rw [h]; rfl)) | cases hd

variable [Fl]

theorem within_generate (us : List UserFun) (a : Args) (name : List Char) (hP : ∀ q, Under (join env.cwd (name ++ ch "_generatedFiles/")) q → P q)
    (hQ : Q (join env.cwd (name ++ ch "_generatedFiles/"))) (hC : a.copy = true → ∀ f q, CopiedTo env.cwd name f q → P q) :
    Within P Q (generate env us a name) := by
  unfold generate
  refine withinA_read.act.bind fun d => Within.bind (WithinA.act (withinA_of fun d d' hd => ?_)) fun r => ?_
  · split at hd <;> first | (cases hd; rfl) | cases hd
  dsimp only
  generalize join env.cwd (name ++ ch "_generatedFiles/") = out at *
  refine (within_create hQ).act.bind fun made => ?_
  split
  · exact within_pure _
  refine (within_library r _ _ hP).act.bind fun _ => Within.bind (WithinA.act (withinA_of fun d d' hd => ?_)) fun _ => ?_
  · cases hh : env.home <;> rw [hh] at hd <;> cases hd <;> rfl
  refine (within_templates name hP).act.bind fun _ => (within_python name _ hP).bind fun v => ?_
  split
  · exact within_pure _
  refine (within_change name r _ (hP _ under'') (hP _ under'')).bind fun v => ?_
  split
  · exact within_pure _
  exact (within_save r _ (hP _ under') (hP _ under')).act.bind fun _ => (within_copies a.copy hC).act.bind fun _ => within_pure _

end Thunder.Gen

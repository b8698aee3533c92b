import Verif.Lemmas.Bindings
import Verif.Lemmas.User
import Verif.Spec.Generate

/-!
# `change_to_robot` on the robot of `robot_from_file`
-/

open scoped Classical

namespace Thunder

noncomputable section

open Spec Act

namespace Text

variable {frm dst h₀ s₀ h s : List Char} {r r' : Robot} {py : Bool} {fs : List FunObj}

theorem change_iff (hg : Robot.getFunctions r = .ok fs r') (hh : ∀ o, Header frm dst (infoOf r) fs h₀ o ↔ o = .ok h)
    (hs : ∀ o, Source frm dst (infoOf r) fs py s₀ o ↔ o = .ok s) (o : Changed) :
    ChangeToRobot frm dst r py (some h₀) (some s₀) o ↔ o = .ret 1 (some h) (some s) := by
  have hu : ∀ {fs' : List FunObj} {r'' : Robot}, Robot.getFunctions r = .ok fs' r'' → fs' = fs := by
    intro fs' r'' h'
    rw [hg] at h'
    injection h' with h1 _
    exact h1.symm
  constructor
  · intro hc
    cases hc with
    | excH h1 h2 => obtain rfl := hu h1; exact absurd ((hh _).1 h2) (by simp)
    | ubH h1 h2 => obtain rfl := hu h1; exact absurd ((hh _).1 h2) (by simp)
    | excCpp h1 _ h3 => obtain rfl := hu h1; exact absurd ((hs _).1 h3) (by simp)
    | ubCpp h1 _ h3 => obtain rfl := hu h1; exact absurd ((hs _).1 h3) (by simp)
    | ok h1 h2 h3 =>
      obtain rfl := hu h1
      have e1 := (hh _).1 h2
      have e2 := (hs _).1 h3
      injection e1 with e1
      injection e2 with e2
      rw [e1, e2]
  · rintro rfl
    exact .ok hg ((hh _).2 rfl) ((hs _).2 rfl)

/-- What `get_functions` reports of a robot. -/
def reports (r : Robot) : List FunObj :=
  r.funs.map fun p => ⟨p.1, r.funDescr.get p.1 "", r.funArgs.get p.1 [], (r.mod p.1).rows, (r.mod p.1).cols⟩

/-- The generated texts, for any robot. -/
theorem instantiate_ok (hd : RepOk dst) (hi : InfoOk (infoOf r)) (hf : ∀ f ∈ reports r, FunOk f) (hp : py = true → r.funs ≠ []) :
    ∃ h s, (∀ o, Instantiate dst r py o ↔ o = .ret 1 (some h) (some s)) ∧ Declared (textLines h) ((reports r).map getterOf) ∧
      Defined dst (textLines s) ((reports r).map (defOf (ch r.name))) ∧
      (py = true → ∃ A B f g, reports r = f ++ [g] ∧ textLines s = A ++ (f.map (bindOf dst) ++ (bindOf dst g ++ [';']) :: B)) := by
  obtain ⟨r', hg⟩ := Robot.getFunctions_run r
  obtain ⟨h, h1, h2⟩ := header_ok hd hi hf
  cases py with
  | false =>
    obtain ⟨s, s1, s2⟩ := source_ok hd hi hf
    exact ⟨h, s, change_iff hg h1 s1, h2, s2, fun e => by cases e⟩
  | true =>
    have hne : reports r ≠ [] := by
      intro e
      exact hp rfl (List.map_eq_nil_iff.1 e)
    obtain ⟨s, s1, s2, A, B, s3⟩ := source_py_ok hd hi hf hne
    exact ⟨h, s, change_iff hg h1 s1, h2, s2, fun _ => ⟨A, B, _, _, (List.dropLast_append_getLast hne).symm, s3⟩⟩

theorem repOk_plain {t : String} : RepOk (ch t) ↔ Plain t := ⟨fun h => ⟨h.nl, h.hash⟩, fun h => ⟨h.1, h.2⟩⟩

end Text

namespace Fn

theorem plain_digits (i : ℕ) : Plain (toString i) := Text.repOk_plain.1 (Text.repOk_dec i)

theorem plain_append {a b : String} (ha : Plain a) (hb : Plain b) : Plain (a ++ b) := by
  unfold Plain at *
  rw [String.toList_append, List.mem_append, List.mem_append]
  tauto

theorem plain_name (f : Fn) : Plain f.name := by
  have h1 : ∀ s : Stem, Plain s.str := by intro s; cases s <;> exact ⟨by decide +kernel, by decide +kernel⟩
  unfold name
  refine plain_append (h1 _) ?_
  cases f.num with
  | none => exact ⟨by decide +kernel, by decide +kernel⟩
  | some i => exact plain_digits i

theorem plain_key (k : Key) : Plain k.str := by cases k <;> exact ⟨by decide +kernel, by decide +kernel⟩

theorem plain_of {s : String} (h : (s.toList.all fun x => x != '\n' && x != '#') = true) : Plain s := by
  rw [List.all_eq_true] at h
  exact ⟨fun hx => absurd (h _ hx) (by decide), fun hx => absurd (h _ hx) (by decide)⟩

theorem plain_descr (n : ℕ) : ∀ f : Fn, Plain (f.descr n)
  | T i => by
    dsimp only [descr]
    split_ifs
    · exact plain_of (by decide +kernel)
    · exact plain_append (plain_append (plain_append (plain_of (by decide +kernel)) (plain_digits _)) (plain_of (by decide +kernel))) (plain_digits _)
  | T0 i => by
    dsimp only [descr]
    split_ifs
    · exact plain_of (by decide +kernel)
    · exact plain_of (by decide +kernel)
    · exact plain_append (plain_of (by decide +kernel)) (plain_digits _)
  | J _ | Jcm _ | Dl _ | K _ | D _ | Dm _ => plain_append (plain_of (by decide +kernel)) (plain_digits _)
  | T0ee | Jee | JeeDot | JeeDdot | JeePinv | M | C | Cstd | G | Mdot | Mddot | Cdot | Cddot | Gdot | Gddot | dl | k | d | dm | Mm | Yr | regM | regC
  | regG | regJdq | regJTw | regDl | regK | regD | regDm | regMm => plain_of (by dsimp only [descr]; decide +kernel)

end Fn

namespace Robot

variable {c : Conf} {r : Robot}

theorem names_iff {s : String} : s ∈ motionNames ++ parNames ↔ ∃ k : Key, s = k.str := by
  have h1 : motionNames ++ parNames = Key.all.map Key.str := by decide
  rw [h1, List.mem_map]
  exact ⟨fun ⟨k, _, e⟩ => ⟨k, e.symm⟩, fun ⟨k, e⟩ => ⟨k, k.mem_all, e.symm⟩⟩

theorem userOk_of {us : List UserFun} (h : UserFuns c us) : UserOk Plain {f | f ∈ library c} us :=
  ⟨fun u hu k e => h.name u hu (names_iff.2 ⟨k, e⟩), h.args, h.text⟩

/-- A registered function is reported as it is. -/
theorem UserReg.report {T : String → Prop} {f : String} (h : UserReg c T r f) : ∃ fargs A d, r.funArgs.find f = some fargs ∧
    r.funs.find f = some ⟨fargs.map (syms c), A⟩ ∧ r.funDescr.find f = some d ∧ r.funDescr.get f "" = d ∧ r.funArgs.get f [] = fargs ∧ r.mod f = A ∧
    T f ∧ T d ∧ ∀ a ∈ fargs, T a := by
  obtain ⟨fa, A, d, b1, b2, b3, b4, -, -, -, -, b9⟩ := h
  refine ⟨fa, A, d, b1, b2, b4, ?_, ?_, ?_, b9⟩
  · unfold SMap.get; rw [b4]; rfl
  · unfold SMap.get; rw [b1]; rfl
  · unfold Robot.mod SMap.get; rw [b3]; rfl

end Robot

end

end Thunder

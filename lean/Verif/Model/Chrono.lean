import Verif.Model.ClassTest

/-!
# The programs `thunder_test_chrono` and `thunder_robot_test_chrono`

`src/thunder/thunder_test_chrono.cpp` builds robots from files and measures how long `get` takes; `src/thunder_robot_chrono/thunder_robot_test_chrono.cpp`
does the same with the getters of a generated class.  The readings of the clock, in nanoseconds, are an arbitrary sequence: nothing is assumed about the
clock (`high_resolution_clock` need not be steady).  Not modelled: the layout of the printed text and the rounding of the division by 1000.
-/

namespace Thunder.Chrono

open Act Robot

noncomputable section

/-- The readings of the clock, one after the other. -/
abbrev Clock := ℕ → ℤ

/-- `int min_dur = 999999999`. -/
def limit : ℤ := 999999999

/-- Conversion of a `long` to an `int` of 32 bits. -/
def toInt (d : ℤ) : ℤ := Int.bmod d (2 ^ 32)

/-- `min_dur = (duration<min_dur) ? duration : min_dur`, thunder_test_chrono.cpp:91. -/
def keep (m d : ℤ) : ℤ := toInt (if d < m then d else m)

/-- `min_dur = ((duration<min_dur)&&(duration>0)) ? duration : min_dur`, thunder_robot_test_chrono.cpp:75. -/
def keepPos (m d : ℤ) : ℤ := toInt (if d < m ∧ d > 0 then d else m)

/-- A loop that evaluates `call` `n` times and reads the clock before and after (thunder_test_chrono.cpp:86-92); `t` readings have been taken before.  The
result is `min_dur` and the values of the calls. -/
def loop {σ : Type} (keep : ℤ → ℤ → ℤ) (clk : Clock) (call : Act σ Mat) : ℕ → ℤ → ℕ → Act σ (ℤ × List Mat)
  | 0, m, _ => pure (m, [])
  | n + 1, m, t => do
    let v ← call
    let (m', l) ← loop keep clk call n (keep m (clk (t + 1) - clk t)) (t + 2)
    pure (m', v :: l)

/-- A line of the output: the heading, the time printed in microseconds, and (not printed) the values that were computed. -/
structure Line where
  heading : String
  time : ℚ
  values : List Mat

/-- The loops one after the other, each for a function. -/
def lines {σ : Type} (keep : ℤ → ℤ → ℤ) (clk : Clock) (call : String → Act σ Mat) (reps : ℕ) : List (String × String) → ℕ → Act σ (List Line)
  | [], _ => pure []
  | (h, f) :: l, t => do
    let (m, v) ← loop keep clk (call f) reps limit t
    let rest ← lines keep clk call reps l (t + 2 * reps)
    pure (⟨h, (m : ℚ) / 1000, v⟩ :: rest)

/-- thunder_test_chrono.cpp:85-153 and thunder_robot_test_chrono.cpp:69-137: the headings and the functions. -/
def timed : List (String × String) :=
  [("time Kin", "T_0_ee"), ("time Jac", "J_ee"), ("time M", "M"), ("time C", "C"), ("time C_std", "C_std"), ("time G", "G"), ("time Yr", "Yr")]

/-! ## `thunder_test_chrono` -/

/-- What is printed for one robot: the name, the time in microseconds in which it was created, and the lines. -/
structure Report where
  name : String
  created : ℤ
  lines : List Line

/-- How a run ends. -/
inductive End
  | finished
  /-- An exception that is not caught. -/
  | thrown
  /-- Undefined behaviour. -/
  | undef

/-- Lines 50-82 of thunder_test_chrono.cpp: `get_par_DYN` and the four setters, all with ones. -/
def prepare : Act Robot Unit := do
  let r ← read
  let _ ← getParDYN
  let _ ← setVar .q (List.replicate r.n (some 1))
  let _ ← setVar .dq (List.replicate r.n (some 1))
  let _ ← setVar .dqr (List.replicate r.n (some 1))
  let _ ← setVar .ddqr (List.replicate r.n (some 1))
  pure ()

/-- Lines 50-153 of thunder_test_chrono.cpp; lines 55 and 56 read the clock twice. -/
def measure (clk : Clock) (t : ℕ) : Act Robot (List Line) := do
  prepare
  lines keep clk get 100 timed (t + 4)

/-- The body of the loop over the robots, lines 43-153; a report, or how the program ends. -/
def one [Fl] (clk : Clock) (name : String) (file : Option Yaml) (t : ℕ) : Report ⊕ End :=
  match robotFromFile name file true with
  | .exc => .inr .thrown
  | .ub => .inr .undef
  | .ok r =>
    match measure clk t r with
    | .ok l _ => .inl ⟨name, Int.tdiv (clk (t + 1) - clk t) 1000, l⟩
    | .yaml _ => .inr .thrown
    | .exc _ => .inr .thrown
    | .ub => .inr .undef

/-- Number of readings of the clock for one robot. -/
def perRobot : ℕ := 4 + 7 * (2 * 100)

/-- The loop over the robots, line 42; `files` are the files that exist, by their path.  The reports that are complete and how the program ends. -/
def robots [Fl] (clk : Clock) (files : String → Option Yaml) : List String → ℕ → List Report × End
  | [], _ => ([], .finished)
  | name :: l, t =>
    match one clk name (files ("../robots/testRobots/" ++ name ++ ".yaml")) t with
    | .inr e => ([], e)
    | .inl p => let (ps, e) := robots clk files l (t + perRobot); (p :: ps, e)

/-- `main` of thunder_test_chrono.cpp, lines 31-157. -/
def main [Fl] (clk : Clock) (files : String → Option Yaml) : List Report × End := robots clk files ["R3", "R5", "R7", "R9"] 0

/-! ## `thunder_robot_test_chrono` -/

/-- A getter of the class generated from `g`, called on an object. -/
def getter (g : Robot) (f : String) : Act Wrap.Obj Mat := fun o =>
  match ClassTest.value (Wrap.getter g f o) with
  | some m => .ok m o
  | none => .ub

/-- Lines 33-62 of thunder_robot_test_chrono.cpp: a new object, `load_conf` and `setArguments` with ones. -/
def prepareClass (c : Wrap.Cfg) (file : Option Yaml) : Option Wrap.Obj :=
  (Wrap.loadConf c file true (Wrap.init c)).bind fun o =>
    (Wrap.setArguments c (List.replicate c.n (some 1)) (List.replicate c.n (some 1)) (List.replicate c.n (some 1)) (List.replicate c.n (some 1)) o).caught

/-- How `thunder_robot_test_chrono` ends. -/
inductive ClassEnd
  | printed (l : List Line)
  /-- Undefined behaviour. -/
  | undef
  /-- The program cannot be compiled. -/
  | notBuilt

/-- `main` of thunder_robot_test_chrono.cpp, lines 28-147, for the class generated from `g` and the given file; lines 38 and 39 read the clock twice. -/
def mainClass (clk : Clock) (g : Robot) (file : Option Yaml) : ClassEnd :=
  if (timed.map Prod.snd).all (ClassTest.hasGetter g) then
    match prepareClass (Wrap.cfgOf g) file with
    | none => .undef
    | some o =>
      match lines keepPos clk (getter g) 10000 timed 2 o with
      | .ok l _ => .printed l
      | _ => .undef
  else .notBuilt

end

end Thunder.Chrono

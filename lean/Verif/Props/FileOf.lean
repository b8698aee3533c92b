import Verif.Props.Config

/-!
# Every configuration is described by some file

So that theorems about well-formed files are not empty for any choice of joints, orders, values and flags.
-/

namespace Thunder

open Spec Robot

noncomputable section

namespace Ex

def ints (k : ℕ) (f : ℕ → ℤ) : Yaml := .seq ((List.range k).map fun i => int (f i))
def reals (k : ℕ) (f : ℕ → ℝ) : Yaml := Yaml.ofVec (nums k f)
def real (x : ℝ) : Yaml := Yaml.ofD (some x)

def frameOf (v : ℕ → ℝ) (f : ℕ → ℤ) : Yaml := .map [(some "tr", reals 3 v), (some "ypr", reals 3 fun i => v (3 + i)), (some "symb", ints 6 f)]

def inertOf (p : ℕ → ℝ) (f : ℕ → ℤ) : Yaml := .map [(some "mass", real (p 0)), (some "CoM_x", real (p 1)), (some "CoM_y", real (p 2)), (some "CoM_z", real (p 3)),
  (some "Ixx", real (p 4)), (some "Ixy", real (p 5)), (some "Ixz", real (p 6)), (some "Iyy", real (p 7)), (some "Iyz", real (p 8)), (some "Izz", real (p 9)),
  (some "symb", ints 10 f)]

def linkOf (c : Conf) (i : ℕ) : Yaml := .map [(some "inertial", inertOf (fun j => c.dyn (10 * i + j)) fun j => c.fdyn (10 * i + j)),
  (some "friction", .map [(some "Dl", reals c.dlO fun j => c.dl (c.dlO * i + j)), (some "symb", ints c.dlO fun j => c.fdl (c.dlO * i + j))])]

def jointOf (c : Conf) (i : ℕ) : Yaml := .map [(some "K", reals c.kO fun j => c.K (c.kO * i + j)), (some "D", reals c.dO fun j => c.D (c.dO * i + j)),
  (some "Dm", reals c.dmO fun j => c.Dm (c.dmO * i + j)), (some "Mm", real (c.Mm i)), (some "K_symb", ints c.kO fun j => c.fK (c.kO * i + j)),
  (some "D_symb", ints c.dO fun j => c.fD (c.dO * i + j)), (some "Dm_symb", ints c.dmO fun j => c.fDm (c.dmO * i + j)), (some "Mm_symb", int (c.fMm i))]

/-- A file for the configuration. -/
def fileOf (c : Conf) : Yaml := .map
  [(some "num_joints", int c.n), (some "type_joints", .seq (c.types.map word)), (some "Dl_order", int c.dlO), (some "ELASTIC_MODEL", truth c.elastic),
    (some "kinematics", .map [(some "DH", reals (4 * c.n) c.dh), (some "symb", ints (4 * c.n) c.fdh)]),
    (some "gravity", .map [(some "value", reals 3 c.g), (some "symb", ints 3 c.fg)]), (some "Base_to_L0", frameOf c.w2l c.fw2l),
    (some "Ln_to_EE", frameOf c.ee c.fee), (some "dynamics", .map ((List.range c.n).map fun i => (some "link", linkOf c i))),
    (some "elastic", .map [(some "K_order", int c.kO), (some "D_order", int c.dO), (some "Dm_order", int c.dmO),
      (some "joints", .map ((List.range c.ne).map fun i => (some "joint", jointOf c i)))])]

theorem mapM_map {α β γ : Type} {f : β → Option γ} {g : α → β} {h : α → γ} (e : ∀ a, f (g a) = some (h a)) (l : List α) :
    (l.map g).mapM f = some (l.map h) := by
  induction l with
  | nil => rfl
  | cons a l ih => rw [List.map_cons, List.mapM_cons, e, ih]; rfl

theorem ints_ok (k : ℕ) (f : ℕ → ℤ) : (ints k f).asVec Yaml.asI = some (flagsL k f) := mapM_map (f := Yaml.asI) (g := fun i => int (f i)) (h := f) (fun _ => rfl) _
theorem reals_ok (k : ℕ) (f : ℕ → ℝ) : (reals k f).asVec Yaml.asD = some (nums k f) := by
  show ((nums k f).map Yaml.ofD).mapM Yaml.asD = _
  rw [mapM_map (f := Yaml.asD) (g := Yaml.ofD) (h := id) (fun _ => rfl), List.map_id]
theorem words_ok (l : List String) : (Yaml.seq (l.map word)).asVec Yaml.asS = some l := by
  show (l.map word).mapM Yaml.asS = _
  rw [mapM_map (f := Yaml.asS) (g := word) (h := id) (fun _ => rfl), List.map_id]

theorem numbers_ok {y : Yaml} {key : String} {k : ℕ} {f : ℕ → ℝ} (h : Child y key (reals k f)) : Numbers y key k fun j => some (f j) :=
  ⟨_, _, h, reals_ok k f, by simp [nums], fun j hj => by simp [nums, hj]⟩

/-- The file describes the configuration; without elastic joints the three orders do not appear in it. -/
theorem describes_fileOf {c : Conf} (h : c.elastic = false → c.kO = 0 ∧ c.dO = 0 ∧ c.dmO = 0) : Describes (fileOf c) c where
  joints := ⟨_, child_of_lookup rfl, rfl⟩
  types := ⟨_, child_of_lookup rfl, words_ok _⟩
  dlO := .inr ⟨_, child_of_lookup rfl, rfl⟩
  kin := ⟨_, child_of_lookup rfl, ⟨_, child_of_lookup rfl, reals_ok _ _⟩, .inr ⟨_, child_of_lookup rfl, ints_ok _ _⟩⟩
  grav := .inr ⟨_, child_of_lookup rfl, rfl, ⟨_, child_of_lookup rfl, reals_ok _ _⟩, .inr ⟨_, child_of_lookup rfl, ints_ok _ _⟩⟩
  base := ⟨_, child_of_lookup rfl, ⟨_, child_of_lookup rfl, reals_ok _ _⟩, ⟨_, child_of_lookup rfl, reals_ok _ _⟩, .inr ⟨_, child_of_lookup rfl, ints_ok _ _⟩⟩
  tool := ⟨_, child_of_lookup rfl, ⟨_, child_of_lookup rfl, reals_ok _ _⟩, ⟨_, child_of_lookup rfl, reals_ok _ _⟩, .inr ⟨_, child_of_lookup rfl, ints_ok _ _⟩⟩
  links := by
    refine ⟨_, child_of_lookup rfl, by simp, fun i hi => ⟨"link", linkOf c i, by simp [hi], ⟨_, child_of_lookup rfl, ?_, .inr ⟨_, child_of_lookup rfl, ints_ok _ _⟩⟩,
      .inr ⟨_, child_of_lookup rfl, numbers_ok (child_of_lookup rfl), fun _ => .inr ⟨_, child_of_lookup rfl, ints_ok _ _⟩⟩⟩⟩
    exact ⟨⟨_, child_of_lookup rfl, rfl⟩, ⟨_, child_of_lookup rfl, rfl⟩, ⟨_, child_of_lookup rfl, rfl⟩, ⟨_, child_of_lookup rfl, rfl⟩,
      ⟨_, child_of_lookup rfl, rfl⟩, ⟨_, child_of_lookup rfl, rfl⟩, ⟨_, child_of_lookup rfl, rfl⟩, ⟨_, child_of_lookup rfl, rfl⟩,
      ⟨_, child_of_lookup rfl, rfl⟩, ⟨_, child_of_lookup rfl, rfl⟩⟩
  ela := by
    cases he : c.elastic with
    | false => exact .inl ⟨rfl, .inr ⟨_, child_of_lookup rfl, by rw [he]; rfl⟩, h he⟩
    | true =>
      refine .inr ⟨rfl, ⟨_, child_of_lookup rfl, by rw [he]; rfl⟩, _, _, child_of_lookup rfl, rfl, ⟨_, child_of_lookup rfl, rfl⟩,
        ⟨_, child_of_lookup rfl, rfl⟩, ⟨_, child_of_lookup rfl, rfl⟩, child_of_lookup rfl, by simp, fun i hi => ⟨"joint", jointOf c i, by simp [hi], ?_⟩⟩
      exact ⟨⟨fun _ => numbers_ok (child_of_lookup rfl), fun _ => numbers_ok (child_of_lookup rfl), fun _ => numbers_ok (child_of_lookup rfl),
        ⟨_, child_of_lookup rfl, rfl⟩⟩, .inr ⟨_, child_of_lookup rfl, ints_ok _ _⟩, .inr ⟨_, child_of_lookup rfl, ints_ok _ _⟩,
        .inr ⟨_, child_of_lookup rfl, ints_ok _ _⟩, .inr ⟨_, child_of_lookup rfl, rfl⟩⟩

end Ex

end

end Thunder

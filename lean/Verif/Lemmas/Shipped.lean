import Verif.Model.Shipped
import Verif.Spec.Shipped
import Verif.Lemmas.Config

/-!
# The robot files are well formed
-/

namespace Thunder

noncomputable section

open Spec Robot Ship Spec.Ship

theorem numbers_take {y z : Yaml} {k : String} {xs : List Num} {m : ℕ} {f : ℕ → ℝ} (h : Child y k z) (e : z.asVec Yaml.asD = some xs)
    (hx : xs.take m = nums m f) : Numbers y k m fun j => some (f j) := by
  have hl : m ≤ xs.length := by
    have := congrArg List.length hx
    simp [nums] at this
    omega
  refine ⟨z, xs, h, e, hl, fun j hj => ?_⟩
  rw [← List.getElem?_take_of_lt hj, hx]
  simp [nums, hj]

/-- The ten entries of an inertial section. -/
def ten (l : List (Option String × Yaml)) : List (Option Num) :=
  ["mass", "CoM_x", "CoM_y", "CoM_z", "Ixx", "Ixy", "Ixz", "Iyy", "Iyz", "Izz"].map fun k => (Yaml.lookup k l).bind Yaml.asD

theorem inertial_of {l : List (Option String × Yaml)} {p : ℕ → ℝ} (h : ten l = (nums 10 p).map some) :
    Inertial (.map l) "CoM_" fun j => some (p j) := by
  have key : ∀ {k : String} {x : Num}, (Yaml.lookup k l).bind Yaml.asD = some x → Number (.map l) k x := by
    intro k x hx
    obtain ⟨z, hz, e⟩ := Option.bind_eq_some_iff.1 hx
    exact ⟨z, child_of_lookup hz, e⟩
  have hr : List.range 10 = [0, 1, 2, 3, 4, 5, 6, 7, 8, 9] := by decide
  rw [ten, nums, hr] at h
  simp only [List.map_cons, List.map_nil, List.cons.injEq, and_true] at h
  obtain ⟨h0, h1, h2, h3, h4, h5, h6, h7, h8, h9⟩ := h
  exact ⟨key h0, key h1, key h2, key h3, key h4, key h5, key h6, key h7, key h8, key h9⟩

/-- A child that is found by looking it up. -/
local macro "kid!" : term => `(child_of_lookup rfl)
/-- An entry that is found by looking it up. -/
local macro "entry!" : term => `(⟨_, kid!, rfl⟩)
/-- A list of numbers that is found by looking it up. -/
local macro "numbers!" : term => `(numbers_take kid! rfl rfl)
/-- A missing entry. -/
local macro "missing!" : term => `(.inl ⟨⟨_, rfl, by decide⟩, by decide⟩)

theorem describes_RRR : Describes RRR RRRC where
  joints := entry!
  types := entry!
  dlO := missing!
  kin := ⟨_, kid!, entry!, .inr entry!⟩
  grav := .inr ⟨_, kid!, rfl, entry!, .inr entry!⟩
  base := ⟨_, kid!, entry!, entry!, .inr entry!⟩
  tool := ⟨_, kid!, entry!, entry!, .inr entry!⟩
  links := ⟨_, kid!, rfl, fun i hi => match i, hi with
    | 0, _ => ⟨_, _, rfl, ⟨_, kid!, inertial_of rfl, .inr entry!⟩, .inr ⟨_, kid!, numbers!, fun h => absurd h (by decide)⟩⟩
    | 1, _ => ⟨_, _, rfl, ⟨_, kid!, inertial_of rfl, .inr entry!⟩, .inr ⟨_, kid!, numbers!, fun h => absurd h (by decide)⟩⟩
    | 2, _ => ⟨_, _, rfl, ⟨_, kid!, inertial_of rfl, .inr entry!⟩, .inr ⟨_, kid!, numbers!, fun h => absurd h (by decide)⟩⟩⟩
  ela := .inl ⟨rfl, .inl ⟨_, rfl, by decide⟩, rfl, rfl, rfl⟩

theorem describes_seaRRR : Describes seaRRR seaRRRC where
  joints := entry!
  types := entry!
  dlO := .inr entry!
  kin := ⟨_, kid!, entry!, .inr entry!⟩
  grav := .inr ⟨_, kid!, rfl, entry!, .inr entry!⟩
  base := ⟨_, kid!, entry!, entry!, .inr entry!⟩
  tool := ⟨_, kid!, entry!, entry!, .inr entry!⟩
  links := ⟨_, kid!, rfl, fun i hi => match i, hi with
    | 0, _ => ⟨_, _, rfl, ⟨_, kid!, inertial_of rfl, .inr entry!⟩, .inr ⟨_, kid!, numbers!, fun _ => .inr entry!⟩⟩
    | 1, _ => ⟨_, _, rfl, ⟨_, kid!, inertial_of rfl, .inr entry!⟩, .inr ⟨_, kid!, numbers!, fun _ => .inr entry!⟩⟩
    | 2, _ => ⟨_, _, rfl, ⟨_, kid!, inertial_of rfl, .inr entry!⟩, .inr ⟨_, kid!, numbers!, fun _ => .inr entry!⟩⟩⟩
  ela := .inr ⟨rfl, entry!, _, _, kid!, rfl, entry!, entry!, entry!, kid!, by decide,
    fun i hi => match i, hi with
    | 0, _ => ⟨_, _, rfl, ⟨fun _ => numbers!, fun _ => numbers!, fun _ => numbers!, entry!⟩, .inr entry!, .inr entry!, .inr entry!, .inr entry!⟩
    | 1, _ => ⟨_, _, rfl, ⟨fun _ => numbers!, fun _ => numbers!, fun _ => numbers!, entry!⟩, .inr entry!, .inr entry!, .inr entry!, .inr entry!⟩
    | 2, _ => ⟨_, _, rfl, ⟨fun _ => numbers!, fun _ => numbers!, fun _ => numbers!, entry!⟩, .inr entry!, .inr entry!, .inr entry!, .inr entry!⟩⟩

theorem describes_ego : Describes ego egoC where
  joints := entry!
  types := entry!
  dlO := .inr entry!
  kin := ⟨_, kid!, entry!, .inr entry!⟩
  grav := .inr ⟨_, kid!, rfl, entry!, .inr entry!⟩
  base := ⟨_, kid!, entry!, entry!, .inr entry!⟩
  tool := ⟨_, kid!, entry!, entry!, .inr entry!⟩
  links := ⟨_, kid!, rfl, fun i hi => match i, hi with
    | 0, _ => ⟨_, _, rfl, ⟨_, kid!, inertial_of rfl, .inr entry!⟩, .inr ⟨_, kid!, numbers!, fun _ => .inr entry!⟩⟩
    | 1, _ => ⟨_, _, rfl, ⟨_, kid!, inertial_of rfl, .inr entry!⟩, .inr ⟨_, kid!, numbers!, fun _ => .inr entry!⟩⟩
    | 2, _ => ⟨_, _, rfl, ⟨_, kid!, inertial_of rfl, .inr entry!⟩, .inr ⟨_, kid!, numbers!, fun _ => .inr entry!⟩⟩
    | 3, _ => ⟨_, _, rfl, ⟨_, kid!, inertial_of rfl, .inr entry!⟩, .inr ⟨_, kid!, numbers!, fun _ => .inr entry!⟩⟩
    | 4, _ => ⟨_, _, rfl, ⟨_, kid!, inertial_of rfl, .inr entry!⟩, .inr ⟨_, kid!, numbers!, fun _ => .inr entry!⟩⟩⟩
  ela := .inr ⟨rfl, entry!, _, _, kid!, rfl, entry!, entry!, entry!, kid!, by decide,
    fun i hi => match i, hi with
    | 0, _ => ⟨_, _, rfl, ⟨fun _ => numbers!, fun _ => numbers!, fun _ => numbers!, entry!⟩, .inr entry!, .inr entry!, .inr entry!, .inr entry!⟩
    | 1, _ => ⟨_, _, rfl, ⟨fun _ => numbers!, fun _ => numbers!, fun _ => numbers!, entry!⟩, .inr entry!, .inr entry!, .inr entry!, .inr entry!⟩
    | 2, _ => ⟨_, _, rfl, ⟨fun _ => numbers!, fun _ => numbers!, fun _ => numbers!, entry!⟩, .inr entry!, .inr entry!, .inr entry!, .inr entry!⟩
    | 3, _ => ⟨_, _, rfl, ⟨fun _ => numbers!, fun _ => numbers!, fun _ => numbers!, entry!⟩, .inr entry!, .inr entry!, .inr entry!, .inr entry!⟩
    | 4, _ => ⟨_, _, rfl, ⟨fun _ => numbers!, fun _ => numbers!, fun _ => numbers!, entry!⟩, .inr entry!, .inr entry!, .inr entry!, .inr entry!⟩⟩

theorem describes_franka : Describes franka frankaC where
  joints := entry!
  types := entry!
  dlO := .inr entry!
  kin := ⟨_, kid!, entry!, .inr entry!⟩
  grav := .inr ⟨_, kid!, rfl, entry!, .inr entry!⟩
  base := ⟨_, kid!, entry!, entry!, .inr entry!⟩
  tool := ⟨_, kid!, entry!, entry!, .inr entry!⟩
  links := ⟨_, kid!, rfl, fun i hi => match i, hi with
    | 0, _ => ⟨_, _, rfl, ⟨_, kid!, inertial_of rfl, .inr entry!⟩, .inr ⟨_, kid!, numbers!, fun _ => .inr entry!⟩⟩
    | 1, _ => ⟨_, _, rfl, ⟨_, kid!, inertial_of rfl, .inr entry!⟩, .inr ⟨_, kid!, numbers!, fun _ => .inr entry!⟩⟩
    | 2, _ => ⟨_, _, rfl, ⟨_, kid!, inertial_of rfl, .inr entry!⟩, .inr ⟨_, kid!, numbers!, fun _ => .inr entry!⟩⟩
    | 3, _ => ⟨_, _, rfl, ⟨_, kid!, inertial_of rfl, .inr entry!⟩, .inr ⟨_, kid!, numbers!, fun _ => .inr entry!⟩⟩
    | 4, _ => ⟨_, _, rfl, ⟨_, kid!, inertial_of rfl, .inr entry!⟩, .inr ⟨_, kid!, numbers!, fun _ => .inr entry!⟩⟩
    | 5, _ => ⟨_, _, rfl, ⟨_, kid!, inertial_of rfl, .inr entry!⟩, .inr ⟨_, kid!, numbers!, fun _ => .inr entry!⟩⟩
    | 6, _ => ⟨_, _, rfl, ⟨_, kid!, inertial_of rfl, .inr entry!⟩, .inr ⟨_, kid!, numbers!, fun _ => .inr entry!⟩⟩⟩
  ela := .inl ⟨rfl, .inl ⟨_, rfl, by decide⟩, rfl, rfl, rfl⟩

theorem describes_wrist : Describes wrist wristC where
  joints := entry!
  types := entry!
  dlO := .inr entry!
  kin := ⟨_, kid!, entry!, .inr entry!⟩
  grav := .inr ⟨_, kid!, rfl, entry!, .inr entry!⟩
  base := ⟨_, kid!, entry!, entry!, .inr entry!⟩
  tool := ⟨_, kid!, entry!, entry!, .inr entry!⟩
  links := ⟨_, kid!, rfl, fun i hi => match i, hi with
    | 0, _ => ⟨_, _, rfl, ⟨_, kid!, inertial_of rfl, .inr entry!⟩, .inr ⟨_, kid!, numbers!, fun _ => .inr entry!⟩⟩
    | 1, _ => ⟨_, _, rfl, ⟨_, kid!, inertial_of rfl, .inr entry!⟩, .inr ⟨_, kid!, numbers!, fun _ => .inr entry!⟩⟩
    | 2, _ => ⟨_, _, rfl, ⟨_, kid!, inertial_of rfl, .inr entry!⟩, .inr ⟨_, kid!, numbers!, fun _ => .inr entry!⟩⟩
    | 3, _ => ⟨_, _, rfl, ⟨_, kid!, inertial_of rfl, .inr entry!⟩, .inr ⟨_, kid!, numbers!, fun _ => .inr entry!⟩⟩
    | 4, _ => ⟨_, _, rfl, ⟨_, kid!, inertial_of rfl, .inr entry!⟩, .inr ⟨_, kid!, numbers!, fun _ => .inr entry!⟩⟩
    | 5, _ => ⟨_, _, rfl, ⟨_, kid!, inertial_of rfl, .inr entry!⟩, .inr ⟨_, kid!, numbers!, fun _ => .inr entry!⟩⟩
    | 6, _ => ⟨_, _, rfl, ⟨_, kid!, inertial_of rfl, .inr entry!⟩, .inr ⟨_, kid!, numbers!, fun _ => .inr entry!⟩⟩
    | 7, _ => ⟨_, _, rfl, ⟨_, kid!, inertial_of rfl, .inr entry!⟩, .inr ⟨_, kid!, numbers!, fun _ => .inr entry!⟩⟩⟩
  ela := .inr ⟨rfl, entry!, _, _, kid!, rfl, entry!, entry!, entry!, kid!, by decide,
    fun i hi => match i, hi with
    | 0, _ => ⟨_, _, rfl, ⟨fun _ => numbers!, fun _ => numbers!, fun _ => numbers!, entry!⟩, .inr entry!, .inr entry!, .inr entry!, .inr entry!⟩⟩

theorem describes_lewis : Describes lewis lewisC where
  joints := entry!
  types := entry!
  dlO := .inr entry!
  kin := ⟨_, kid!, entry!, .inr entry!⟩
  grav := .inr ⟨_, kid!, rfl, entry!, .inr entry!⟩
  base := ⟨_, kid!, entry!, entry!, .inr entry!⟩
  tool := ⟨_, kid!, entry!, entry!, .inr entry!⟩
  links := ⟨_, kid!, rfl, fun i hi => match i, hi with
    | 0, _ => ⟨_, _, rfl, ⟨_, kid!, inertial_of rfl, .inr entry!⟩, .inr ⟨_, kid!, numbers!, fun _ => .inr entry!⟩⟩
    | 1, _ => ⟨_, _, rfl, ⟨_, kid!, inertial_of rfl, .inr entry!⟩, .inr ⟨_, kid!, numbers!, fun _ => .inr entry!⟩⟩
    | 2, _ => ⟨_, _, rfl, ⟨_, kid!, inertial_of rfl, .inr entry!⟩, .inr ⟨_, kid!, numbers!, fun _ => .inr entry!⟩⟩
    | 3, _ => ⟨_, _, rfl, ⟨_, kid!, inertial_of rfl, .inr entry!⟩, .inr ⟨_, kid!, numbers!, fun _ => .inr entry!⟩⟩
    | 4, _ => ⟨_, _, rfl, ⟨_, kid!, inertial_of rfl, .inr entry!⟩, .inr ⟨_, kid!, numbers!, fun _ => .inr entry!⟩⟩
    | 5, _ => ⟨_, _, rfl, ⟨_, kid!, inertial_of rfl, .inr entry!⟩, .inr ⟨_, kid!, numbers!, fun _ => .inr entry!⟩⟩
    | 6, _ => ⟨_, _, rfl, ⟨_, kid!, inertial_of rfl, .inr entry!⟩, .inr ⟨_, kid!, numbers!, fun _ => .inr entry!⟩⟩
    | 7, _ => ⟨_, _, rfl, ⟨_, kid!, inertial_of rfl, .inr entry!⟩, .inr ⟨_, kid!, numbers!, fun _ => .inr entry!⟩⟩⟩
  ela := .inl ⟨rfl, .inl ⟨_, rfl, by decide⟩, rfl, rfl, rfl⟩

theorem describes_richard : Describes richard richardC where
  joints := entry!
  types := entry!
  dlO := .inr entry!
  kin := ⟨_, kid!, entry!, .inr entry!⟩
  grav := .inr ⟨_, kid!, rfl, entry!, .inr entry!⟩
  base := ⟨_, kid!, entry!, entry!, .inr entry!⟩
  tool := ⟨_, kid!, entry!, entry!, .inr entry!⟩
  links := ⟨_, kid!, rfl, fun i hi => match i, hi with
    | 0, _ => ⟨_, _, rfl, ⟨_, kid!, inertial_of rfl, .inr entry!⟩, .inr ⟨_, kid!, numbers!, fun _ => .inr entry!⟩⟩
    | 1, _ => ⟨_, _, rfl, ⟨_, kid!, inertial_of rfl, .inr entry!⟩, .inr ⟨_, kid!, numbers!, fun _ => .inr entry!⟩⟩
    | 2, _ => ⟨_, _, rfl, ⟨_, kid!, inertial_of rfl, .inr entry!⟩, .inr ⟨_, kid!, numbers!, fun _ => .inr entry!⟩⟩
    | 3, _ => ⟨_, _, rfl, ⟨_, kid!, inertial_of rfl, .inr entry!⟩, .inr ⟨_, kid!, numbers!, fun _ => .inr entry!⟩⟩
    | 4, _ => ⟨_, _, rfl, ⟨_, kid!, inertial_of rfl, .inr entry!⟩, .inr ⟨_, kid!, numbers!, fun _ => .inr entry!⟩⟩
    | 5, _ => ⟨_, _, rfl, ⟨_, kid!, inertial_of rfl, .inr entry!⟩, .inr ⟨_, kid!, numbers!, fun _ => .inr entry!⟩⟩
    | 6, _ => ⟨_, _, rfl, ⟨_, kid!, inertial_of rfl, .inr entry!⟩, .inr ⟨_, kid!, numbers!, fun _ => .inr entry!⟩⟩
    | 7, _ => ⟨_, _, rfl, ⟨_, kid!, inertial_of rfl, .inr entry!⟩, .inr ⟨_, kid!, numbers!, fun _ => .inr entry!⟩⟩⟩
  ela := .inl ⟨rfl, .inl ⟨_, rfl, by decide⟩, rfl, rfl, rfl⟩

theorem describes_R3 : Describes R3 R3C where
  joints := entry!
  types := entry!
  dlO := missing!
  kin := ⟨_, kid!, entry!, missing!⟩
  grav := .inr ⟨_, kid!, rfl, entry!, .inr entry!⟩
  base := ⟨_, kid!, entry!, entry!, missing!⟩
  tool := ⟨_, kid!, entry!, entry!, missing!⟩
  links := ⟨_, kid!, rfl, fun i hi => match i, hi with
    | 0, _ => ⟨_, _, rfl, ⟨_, kid!, inertial_of rfl, .inr entry!⟩, .inl ⟨rfl, ⟨_, rfl, by decide⟩⟩⟩
    | 1, _ => ⟨_, _, rfl, ⟨_, kid!, inertial_of rfl, .inr entry!⟩, .inl ⟨rfl, ⟨_, rfl, by decide⟩⟩⟩
    | 2, _ => ⟨_, _, rfl, ⟨_, kid!, inertial_of rfl, .inr entry!⟩, .inl ⟨rfl, ⟨_, rfl, by decide⟩⟩⟩⟩
  ela := .inl ⟨rfl, .inl ⟨_, rfl, by decide⟩, rfl, rfl, rfl⟩

theorem describes_R5 : Describes R5 R5C where
  joints := entry!
  types := entry!
  dlO := missing!
  kin := ⟨_, kid!, entry!, missing!⟩
  grav := .inr ⟨_, kid!, rfl, entry!, missing!⟩
  base := ⟨_, kid!, entry!, entry!, missing!⟩
  tool := ⟨_, kid!, entry!, entry!, missing!⟩
  links := ⟨_, kid!, rfl, fun i hi => match i, hi with
    | 0, _ => ⟨_, _, rfl, ⟨_, kid!, inertial_of rfl, .inr entry!⟩, .inl ⟨rfl, ⟨_, rfl, by decide⟩⟩⟩
    | 1, _ => ⟨_, _, rfl, ⟨_, kid!, inertial_of rfl, .inr entry!⟩, .inl ⟨rfl, ⟨_, rfl, by decide⟩⟩⟩
    | 2, _ => ⟨_, _, rfl, ⟨_, kid!, inertial_of rfl, .inr entry!⟩, .inl ⟨rfl, ⟨_, rfl, by decide⟩⟩⟩
    | 3, _ => ⟨_, _, rfl, ⟨_, kid!, inertial_of rfl, .inr entry!⟩, .inl ⟨rfl, ⟨_, rfl, by decide⟩⟩⟩
    | 4, _ => ⟨_, _, rfl, ⟨_, kid!, inertial_of rfl, .inr entry!⟩, .inl ⟨rfl, ⟨_, rfl, by decide⟩⟩⟩⟩
  ela := .inl ⟨rfl, .inl ⟨_, rfl, by decide⟩, rfl, rfl, rfl⟩

theorem describes_R7 : Describes R7 R7C where
  joints := entry!
  types := entry!
  dlO := missing!
  kin := ⟨_, kid!, entry!, missing!⟩
  grav := .inr ⟨_, kid!, rfl, entry!, missing!⟩
  base := ⟨_, kid!, entry!, entry!, missing!⟩
  tool := ⟨_, kid!, entry!, entry!, missing!⟩
  links := ⟨_, kid!, rfl, fun i hi => match i, hi with
    | 0, _ => ⟨_, _, rfl, ⟨_, kid!, inertial_of rfl, .inr entry!⟩, .inl ⟨rfl, ⟨_, rfl, by decide⟩⟩⟩
    | 1, _ => ⟨_, _, rfl, ⟨_, kid!, inertial_of rfl, .inr entry!⟩, .inl ⟨rfl, ⟨_, rfl, by decide⟩⟩⟩
    | 2, _ => ⟨_, _, rfl, ⟨_, kid!, inertial_of rfl, .inr entry!⟩, .inl ⟨rfl, ⟨_, rfl, by decide⟩⟩⟩
    | 3, _ => ⟨_, _, rfl, ⟨_, kid!, inertial_of rfl, .inr entry!⟩, .inl ⟨rfl, ⟨_, rfl, by decide⟩⟩⟩
    | 4, _ => ⟨_, _, rfl, ⟨_, kid!, inertial_of rfl, .inr entry!⟩, .inl ⟨rfl, ⟨_, rfl, by decide⟩⟩⟩
    | 5, _ => ⟨_, _, rfl, ⟨_, kid!, inertial_of rfl, .inr entry!⟩, .inl ⟨rfl, ⟨_, rfl, by decide⟩⟩⟩
    | 6, _ => ⟨_, _, rfl, ⟨_, kid!, inertial_of rfl, .inr entry!⟩, .inl ⟨rfl, ⟨_, rfl, by decide⟩⟩⟩⟩
  ela := .inl ⟨rfl, .inl ⟨_, rfl, by decide⟩, rfl, rfl, rfl⟩

theorem describes_R9 : Describes R9 R9C where
  joints := entry!
  types := entry!
  dlO := missing!
  kin := ⟨_, kid!, entry!, missing!⟩
  grav := .inr ⟨_, kid!, rfl, entry!, missing!⟩
  base := ⟨_, kid!, entry!, entry!, missing!⟩
  tool := ⟨_, kid!, entry!, entry!, missing!⟩
  links := ⟨_, kid!, rfl, fun i hi => match i, hi with
    | 0, _ => ⟨_, _, rfl, ⟨_, kid!, inertial_of rfl, .inr entry!⟩, .inl ⟨rfl, ⟨_, rfl, by decide⟩⟩⟩
    | 1, _ => ⟨_, _, rfl, ⟨_, kid!, inertial_of rfl, .inr entry!⟩, .inl ⟨rfl, ⟨_, rfl, by decide⟩⟩⟩
    | 2, _ => ⟨_, _, rfl, ⟨_, kid!, inertial_of rfl, .inr entry!⟩, .inl ⟨rfl, ⟨_, rfl, by decide⟩⟩⟩
    | 3, _ => ⟨_, _, rfl, ⟨_, kid!, inertial_of rfl, .inr entry!⟩, .inl ⟨rfl, ⟨_, rfl, by decide⟩⟩⟩
    | 4, _ => ⟨_, _, rfl, ⟨_, kid!, inertial_of rfl, .inr entry!⟩, .inl ⟨rfl, ⟨_, rfl, by decide⟩⟩⟩
    | 5, _ => ⟨_, _, rfl, ⟨_, kid!, inertial_of rfl, .inr entry!⟩, .inl ⟨rfl, ⟨_, rfl, by decide⟩⟩⟩
    | 6, _ => ⟨_, _, rfl, ⟨_, kid!, inertial_of rfl, .inr entry!⟩, .inl ⟨rfl, ⟨_, rfl, by decide⟩⟩⟩
    | 7, _ => ⟨_, _, rfl, ⟨_, kid!, inertial_of rfl, .inr entry!⟩, .inl ⟨rfl, ⟨_, rfl, by decide⟩⟩⟩
    | 8, _ => ⟨_, _, rfl, ⟨_, kid!, inertial_of rfl, .inr entry!⟩, .inl ⟨rfl, ⟨_, rfl, by decide⟩⟩⟩⟩
  ela := .inl ⟨rfl, .inl ⟨_, rfl, by decide⟩, rfl, rfl, rfl⟩

theorem describes_R9k : Describes R9k R9kC where
  joints := entry!
  types := entry!
  dlO := missing!
  kin := ⟨_, kid!, entry!, .inr entry!⟩
  grav := .inr ⟨_, kid!, rfl, entry!, missing!⟩
  base := ⟨_, kid!, entry!, entry!, missing!⟩
  tool := ⟨_, kid!, entry!, entry!, missing!⟩
  links := ⟨_, kid!, rfl, fun i hi => match i, hi with
    | 0, _ => ⟨_, _, rfl, ⟨_, kid!, inertial_of rfl, .inr entry!⟩, .inl ⟨rfl, ⟨_, rfl, by decide⟩⟩⟩
    | 1, _ => ⟨_, _, rfl, ⟨_, kid!, inertial_of rfl, .inr entry!⟩, .inl ⟨rfl, ⟨_, rfl, by decide⟩⟩⟩
    | 2, _ => ⟨_, _, rfl, ⟨_, kid!, inertial_of rfl, .inr entry!⟩, .inl ⟨rfl, ⟨_, rfl, by decide⟩⟩⟩
    | 3, _ => ⟨_, _, rfl, ⟨_, kid!, inertial_of rfl, .inr entry!⟩, .inl ⟨rfl, ⟨_, rfl, by decide⟩⟩⟩
    | 4, _ => ⟨_, _, rfl, ⟨_, kid!, inertial_of rfl, .inr entry!⟩, .inl ⟨rfl, ⟨_, rfl, by decide⟩⟩⟩
    | 5, _ => ⟨_, _, rfl, ⟨_, kid!, inertial_of rfl, .inr entry!⟩, .inl ⟨rfl, ⟨_, rfl, by decide⟩⟩⟩
    | 6, _ => ⟨_, _, rfl, ⟨_, kid!, inertial_of rfl, .inr entry!⟩, .inl ⟨rfl, ⟨_, rfl, by decide⟩⟩⟩
    | 7, _ => ⟨_, _, rfl, ⟨_, kid!, inertial_of rfl, .inr entry!⟩, .inl ⟨rfl, ⟨_, rfl, by decide⟩⟩⟩
    | 8, _ => ⟨_, _, rfl, ⟨_, kid!, inertial_of rfl, .inr entry!⟩, .inl ⟨rfl, ⟨_, rfl, by decide⟩⟩⟩⟩
  ela := .inl ⟨rfl, .inl ⟨_, rfl, by decide⟩, rfl, rfl, rfl⟩

theorem describes_R9n : Describes R9n R9nC where
  joints := entry!
  types := entry!
  dlO := missing!
  kin := ⟨_, kid!, entry!, missing!⟩
  grav := .inr ⟨_, kid!, rfl, entry!, missing!⟩
  base := ⟨_, kid!, entry!, entry!, missing!⟩
  tool := ⟨_, kid!, entry!, entry!, missing!⟩
  links := ⟨_, kid!, rfl, fun i hi => match i, hi with
    | 0, _ => ⟨_, _, rfl, ⟨_, kid!, inertial_of rfl, .inr entry!⟩, .inl ⟨rfl, ⟨_, rfl, by decide⟩⟩⟩
    | 1, _ => ⟨_, _, rfl, ⟨_, kid!, inertial_of rfl, .inr entry!⟩, .inl ⟨rfl, ⟨_, rfl, by decide⟩⟩⟩
    | 2, _ => ⟨_, _, rfl, ⟨_, kid!, inertial_of rfl, .inr entry!⟩, .inl ⟨rfl, ⟨_, rfl, by decide⟩⟩⟩
    | 3, _ => ⟨_, _, rfl, ⟨_, kid!, inertial_of rfl, .inr entry!⟩, .inl ⟨rfl, ⟨_, rfl, by decide⟩⟩⟩
    | 4, _ => ⟨_, _, rfl, ⟨_, kid!, inertial_of rfl, .inr entry!⟩, .inl ⟨rfl, ⟨_, rfl, by decide⟩⟩⟩
    | 5, _ => ⟨_, _, rfl, ⟨_, kid!, inertial_of rfl, .inr entry!⟩, .inl ⟨rfl, ⟨_, rfl, by decide⟩⟩⟩
    | 6, _ => ⟨_, _, rfl, ⟨_, kid!, inertial_of rfl, .inr entry!⟩, .inl ⟨rfl, ⟨_, rfl, by decide⟩⟩⟩
    | 7, _ => ⟨_, _, rfl, ⟨_, kid!, inertial_of rfl, .inr entry!⟩, .inl ⟨rfl, ⟨_, rfl, by decide⟩⟩⟩
    | 8, _ => ⟨_, _, rfl, ⟨_, kid!, inertial_of rfl, .inr entry!⟩, .inl ⟨rfl, ⟨_, rfl, by decide⟩⟩⟩⟩
  ela := .inl ⟨rfl, .inl ⟨_, rfl, by decide⟩, rfl, rfl, rfl⟩

theorem describes_oldRRR : Describes oldRRR oldRRRC where
  joints := entry!
  types := entry!
  dlO := missing!
  kin := ⟨_, kid!, entry!, .inr entry!⟩
  grav := .inr ⟨_, kid!, rfl, entry!, .inr entry!⟩
  base := ⟨_, kid!, entry!, entry!, .inr entry!⟩
  tool := ⟨_, kid!, entry!, entry!, .inr entry!⟩
  links := ⟨_, kid!, rfl, fun i hi => match i, hi with
    | 0, _ => ⟨_, _, rfl, ⟨_, kid!, inertial_of rfl, .inr entry!⟩, .inr ⟨_, kid!, numbers!, fun h => absurd h (by decide)⟩⟩
    | 1, _ => ⟨_, _, rfl, ⟨_, kid!, inertial_of rfl, .inr entry!⟩, .inr ⟨_, kid!, numbers!, fun h => absurd h (by decide)⟩⟩
    | 2, _ => ⟨_, _, rfl, ⟨_, kid!, inertial_of rfl, .inr entry!⟩, .inr ⟨_, kid!, numbers!, fun h => absurd h (by decide)⟩⟩⟩
  ela := .inl ⟨rfl, .inl ⟨_, rfl, by decide⟩, rfl, rfl, rfl⟩

theorem describes_oldSea : Describes oldSea oldSeaC where
  joints := entry!
  types := entry!
  dlO := .inr entry!
  kin := ⟨_, kid!, entry!, .inr entry!⟩
  grav := .inr ⟨_, kid!, rfl, entry!, .inr entry!⟩
  base := ⟨_, kid!, entry!, entry!, .inr entry!⟩
  tool := ⟨_, kid!, entry!, entry!, .inr entry!⟩
  links := ⟨_, kid!, rfl, fun i hi => match i, hi with
    | 0, _ => ⟨_, _, rfl, ⟨_, kid!, inertial_of rfl, .inr entry!⟩, .inr ⟨_, kid!, numbers!, fun _ => .inr entry!⟩⟩
    | 1, _ => ⟨_, _, rfl, ⟨_, kid!, inertial_of rfl, .inr entry!⟩, .inr ⟨_, kid!, numbers!, fun _ => .inr entry!⟩⟩
    | 2, _ => ⟨_, _, rfl, ⟨_, kid!, inertial_of rfl, .inr entry!⟩, .inr ⟨_, kid!, numbers!, fun _ => .inr entry!⟩⟩⟩
  ela := .inr ⟨rfl, entry!, _, _, kid!, rfl, entry!, entry!, entry!, kid!, by decide,
    fun i hi => match i, hi with
    | 0, _ => ⟨_, _, rfl, ⟨fun _ => numbers!, fun _ => numbers!, fun _ => numbers!, entry!⟩, .inr entry!, .inr entry!, .inr entry!, .inr entry!⟩⟩

theorem describes_oldFranka : Describes oldFranka oldFrankaC where
  joints := entry!
  types := entry!
  dlO := missing!
  kin := ⟨_, kid!, entry!, .inr entry!⟩
  grav := .inr ⟨_, kid!, rfl, entry!, .inr entry!⟩
  base := ⟨_, kid!, entry!, entry!, .inr entry!⟩
  tool := ⟨_, kid!, entry!, entry!, .inr entry!⟩
  links := ⟨_, kid!, rfl, fun i hi => match i, hi with
    | 0, _ => ⟨_, _, rfl, ⟨_, kid!, inertial_of rfl, .inr entry!⟩, .inl ⟨rfl, ⟨_, rfl, by decide⟩⟩⟩
    | 1, _ => ⟨_, _, rfl, ⟨_, kid!, inertial_of rfl, .inr entry!⟩, .inl ⟨rfl, ⟨_, rfl, by decide⟩⟩⟩
    | 2, _ => ⟨_, _, rfl, ⟨_, kid!, inertial_of rfl, .inr entry!⟩, .inl ⟨rfl, ⟨_, rfl, by decide⟩⟩⟩
    | 3, _ => ⟨_, _, rfl, ⟨_, kid!, inertial_of rfl, .inr entry!⟩, .inl ⟨rfl, ⟨_, rfl, by decide⟩⟩⟩
    | 4, _ => ⟨_, _, rfl, ⟨_, kid!, inertial_of rfl, .inr entry!⟩, .inl ⟨rfl, ⟨_, rfl, by decide⟩⟩⟩
    | 5, _ => ⟨_, _, rfl, ⟨_, kid!, inertial_of rfl, .inr entry!⟩, .inl ⟨rfl, ⟨_, rfl, by decide⟩⟩⟩
    | 6, _ => ⟨_, _, rfl, ⟨_, kid!, inertial_of rfl, .inr entry!⟩, .inl ⟨rfl, ⟨_, rfl, by decide⟩⟩⟩⟩
  ela := .inl ⟨rfl, .inl ⟨_, rfl, by decide⟩, rfl, rfl, rfl⟩

end

end Thunder

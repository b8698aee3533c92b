import Verif.Lemmas.User
import Verif.Lemmas.WrapperFile
import Verif.Spec.Gen

/-!
# `par_REG` of a robot built from a file, and the tree written by `save_par_REG`
-/

open scoped Classical

namespace Thunder

noncomputable section

open Spec Act

namespace Robot

variable {c : Conf} {v : List Num}

/-! ## `par_REG` is not changed by `robot_from_file` after the file was read -/

theorem keeps_arg_of_eq {f : Robot → Robot} (hf : ∀ r, (f r).args = r.args) : Keeps (fun r => r.arg "par_REG" = v) (Act.modify f) :=
  Keeps.modify fun r h => by unfold Robot.arg at h ⊢; rw [hf]; exact h

theorem keeps_arg_collect (a : List String) : Keeps (fun r => r.arg "par_REG" = v) (collect a) := by
  induction a with
  | nil => exact Keeps.pure _
  | cons b l ih =>
    exact (keeps_arg_of_eq (by intro r; rfl)).bind fun _ => Keeps.read fun r => (Keeps.ofIdx _).bind fun _ => Keeps.bind ih fun _ => Keeps.pure _

theorem closed_arg : Closed fun r => r.arg "par_REG" = v where
  add f e a d o := Keeps.read fun r => Keeps.ite (Keeps.pure _) <| (keeps_arg_of_eq (by intro r; rfl)).bind fun _ => (keeps_arg_collect a).bind fun _ =>
    (Keeps.ofExc _).bind fun _ => (keeps_arg_of_eq (by intro r; rfl)).bind fun _ => Keeps.pure _
  touch s := keeps_arg_of_eq (by intro r; rfl)

theorem keeps_arg_initSymb : Keeps (fun r => r.arg "par_REG" = v) initSymb := by
  refine Keeps.read fun r => Keeps.foldl (g := fun p : String × List ℤ => subsSymb p.1) (fun p => ?_) _ _ (Keeps.pure _)
  refine Keeps.read fun r => (keeps_arg_of_eq (by intro r; rfl)).bind fun _ => ?_
  have : ∀ (l : List ℤ) (i : ℕ), Keeps (fun r => r.arg "par_REG" = v) (subsLoop p.1 i l) := by
    intro l
    induction l with
    | nil => intro i; exact Keeps.pure _
    | cons f l ih =>
      intro i
      unfold subsLoop
      exact Keeps.ite (Keeps.read fun r => (Keeps.ofExc _).bind fun _ => (Keeps.ofIdx _).bind fun _ => (Keeps.ofExc _).bind fun A =>
        (Keeps.modify fun r h => by
          exact (SMap.get_ins_default _ _ _ _).trans h).bind fun _ => ih _) (ih _)
  exact this _ _

/-- `par_REG` has no flags. -/
def Unlisted (v : List Num) (r : Robot) : Prop := r.arg "par_REG" = v ∧ r.symb.has "par_REG" = false

theorem unlisted_of_eq {f : Robot → Robot} (hf : ∀ r, (f r).args = r.args ∧ (f r).symb = r.symb) : Keeps (Unlisted v) (Act.modify f) :=
  Keeps.modify fun r h => by unfold Unlisted Robot.arg at h ⊢; rw [(hf r).1, (hf r).2]; exact h

theorem unlisted_collect (a : List String) (ha : "par_REG" ∉ a) : Keeps (Unlisted v) (collect a) := by
  induction a with
  | nil => exact Keeps.pure _
  | cons b l ih =>
    refine (Keeps.modify fun r h => ⟨h.1, ?_⟩).bind fun _ => Keeps.read fun r => (Keeps.ofIdx _).bind fun _ =>
      Keeps.bind (ih fun h => ha (List.mem_cons_of_mem _ h)) fun _ => Keeps.pure _
    have hne : "par_REG" ≠ b := fun e => ha (e ▸ List.mem_cons_self)
    have := h.2
    unfold SMap.has at this ⊢
    rw [SMap.find_ins, if_neg (Ne.symm hne)]
    exact this

theorem unlisted_user {us : List UserFun} (hu : ∀ u ∈ us, "par_REG" ∉ u.sure ++ u.possible) : Keeps (Unlisted v) (computeUser us) := by
  induction us with
  | nil => exact Keeps.pure _
  | cons u us ih =>
    refine Keeps.read fun r => Keeps.bind ?_ fun _ => ih fun u' hu' => hu u' (List.mem_cons_of_mem _ hu')
    refine Keeps.read fun r' => (Keeps.ofExc _).bind fun e => Keeps.bind ?_ fun _ => Keeps.pure _
    refine Keeps.read fun r => Keeps.ite (Keeps.pure _) <| (unlisted_of_eq (by intro r; exact ⟨rfl, rfl⟩)).bind fun _ => (unlisted_collect _ ?_).bind fun _ =>
      (Keeps.ofExc _).bind fun _ => (unlisted_of_eq (by intro r; exact ⟨rfl, rfl⟩)).bind fun _ => Keeps.pure _
    intro h
    refine hu u List.mem_cons_self ?_
    rcases List.mem_append.1 h with h | h
    · exact List.mem_append_left _ h
    · exact List.mem_append_right _ (List.mem_of_mem_filter h)

theorem arg_updateSymb {r : Robot} (h : Unlisted v r) : Res.Post (fun r => r.arg "par_REG" = v) (updateSymb r) := by
  obtain ⟨h1, h2⟩ := h
  unfold updateSymb
  rw [bind_ok (read_run _)]
  have hm : ∀ p ∈ r.symb, p.1 ≠ "par_REG" := by
    intro p hp e
    have : r.symb.has "par_REG" = true := SMap.has_iff.2 (List.mem_map.2 ⟨p, hp, e⟩)
    rw [this] at h2; cases h2
  have : ∀ (l : SMap (List ℤ)) (x : Act Robot Unit), (∀ p ∈ l, p.1 ≠ "par_REG") → Keeps (fun r => r.arg "par_REG" = v) x →
      Keeps (fun r => r.arg "par_REG" = v) (l.foldl (fun (a : Act Robot Unit) p => a >>= fun _ => compact p.1 p.2) x) := by
    intro l
    induction l with
    | nil => intro x _ hx; exact hx
    | cons p l ih =>
      intro x hl hx
      refine ih _ (fun q hq => hl q (List.mem_cons_of_mem _ hq)) (hx.bind fun _ => ?_)
      refine Keeps.read fun r => (Keeps.ofExc _).bind fun m => (Keeps.ofExc _).bind fun w => Keeps.modify fun r h => ?_
      have hne := hl p List.mem_cons_self
      unfold Robot.arg SMap.get at h ⊢
      rw [SMap.find_put, if_neg hne]
      exact h
  exact this r.symb _ hm (Keeps.pure _) r h1

variable [Fl]

/-- `par_REG` after `robot_from_file` is the REG image of the inertial parameters of the file, provided no user function takes `par_REG` as an
argument. -/
theorem fromFileWith_reg {y : Yaml} (h : Describes y c) (hn : 0 < c.n) (ht : Typed c) {us : List UserFun}
    (hu : ∀ u ∈ us, "par_REG" ∉ u.sure ++ u.possible) {name : String} {r : Robot} (e : robotFromFileWith us name (some y) true = .ok r) :
    Consistent c.n (nums (10 * c.n) c.dyn) (r.arg "par_REG") := by
  have hnm := robotName_of_with h e
  obtain ⟨r₁, r₂, r₃, e₁, e₂, e₃, s₃⟩ := before_user h hn ht hnm
  obtain ⟨r₁', e₁', s₁, -, -, hc, -⟩ := start_ok h name
  rw [e₁] at e₁'
  obtain rfl : r₁ = r₁' := by cases e₁'; rfl
  have hdyn : r₁.arg "par_DYN" = nums (10 * c.n) c.dyn := (s₁.arg .DYN).trans (by show nums (c.n * 10) c.dyn = _; rw [Nat.mul_comm])
  rw [hdyn] at hc
  have b₂ : Res.Post (fun r => r.arg "par_REG" = r₁.arg "par_REG") (initSymb r₁) := keeps_arg_initSymb _ rfl
  rw [e₂] at b₂
  have b₃ : Res.Post (fun r => r.arg "par_REG" = r₁.arg "par_REG") (computeAll r₂) :=
    ((keeps_kin closed_arg).bind fun _ => (keeps_dyn closed_arg).bind fun _ => (keeps_regs closed_arg).bind fun _ => Keeps.pure _) _ b₂
  rw [e₃] at b₃
  have u₃ : Unlisted (r₁.arg "par_REG") r₃ := by
    refine ⟨b₃, ?_⟩
    rw [← Bool.not_eq_true]
    intro hs
    obtain ⟨p, hp, hp'⟩ := List.mem_map.1 (SMap.has_iff.1 hs)
    rw [s₃.symb] at hp
    obtain ⟨k, _, rfl⟩ := key_of_mem_symb hp
    have hk : ∀ k : Key, k.str ≠ "par_REG" := by intro k; cases k <;> decide
    exact hk k hp'
  have hfill : fillRobotWith us name (some y) true (robotOf c) = (computeUser us >>= fun _ => updateSymb) r₃ := by
    have hall : (computeAll >>= fun _ => computeUser us >>= fun _ => updateSymb) r₂ = (computeUser us >>= fun _ => updateSymb) r₃ := bind_ok e₃
    unfold fillRobotWith
    rw [bind_ok (modify_run _ _), bind_ok e₁]
    simp only [if_true]
    rw [bind_ok e₂, ← hall]
    unfold computeAll
    simp only [act_assoc]
    rfl
  have hcon : constructFile (some y) = .ok (robotOf c) := construct_ok h
  unfold robotFromFileWith at e
  rw [hcon] at e
  dsimp only at e
  rw [hfill] at e
  cases hb : (computeUser us >>= fun _ => updateSymb) r₃ with
  | ok z r' =>
    rw [hb] at e
    obtain rfl : r' = r := by simpa using e
    obtain ⟨_, r₄, e₄, e₅⟩ := ok_bind hb
    have b₄ : Res.Post (Unlisted (r₁.arg "par_REG")) (computeUser us r₃) := unlisted_user hu _ u₃
    rw [e₄] at b₄
    have b₅ := arg_updateSymb b₄
    rw [e₅] at b₅
    rw [show r'.arg "par_REG" = _ from b₅]
    exact hc
  | yaml r' => rw [hb] at e; cases e
  | exc r' => rw [hb] at e; cases e
  | ub => rw [hb] at e; cases e

/-! ## The tree written by `save_par_REG` -/

omit [Fl] in
theorem foldlM_some {α β : Type} {f : α → β → Option α} {g : α → β → α} (l : List β) (h : ∀ b ∈ l, ∀ a, f a b = some (g a b)) (a : α) :
    l.foldlM f a = some (l.foldl g a) := by
  induction l generalizing a with
  | nil => rfl
  | cons b l ih =>
    rw [List.foldlM_cons, h b List.mem_cons_self a]
    exact ih (fun b' hb => h b' (List.mem_cons_of_mem _ hb)) _

/-- The node of a link. -/
def regNode (par : List Num) (i : ℕ) : Yaml :=
  .map [(some "inertial", .map ((List.range 10).map fun k => (some ((keys "m_CoM_").getD k ""), Yaml.ofD (par.getD (10 * i + k) none))))]

omit [Fl] in
theorem linkNode_eq {n i : ℕ} {par : List Num} (h : par.length = 10 * n) (hi : i < n) : linkNode par i = some (regNode par i) := by
  unfold linkNode
  rw [foldlM_some (g := fun y k => y.setKey ((keys "m_CoM_").getD k "") (Yaml.ofD (par.getD (10 * i + k) none))) _ (fun k hk a => by
    have hlt : 10 * i + k < par.length := by have := List.mem_range.1 hk; omega
    rw [List.getD_eq_getElem?_getD (l := par), List.getElem?_eq_getElem hlt]
    rfl),
    Yaml.foldl_setKey (base := .undef) trivial (fun k => (keys "m_CoM_").getD k "") _ 10 (Wrap.inertialKeys_inj (.inl rfl))]
  rfl

omit [Fl] in
theorem regTree_eq {n : ℕ} {par : List Num} (hn : 0 < n) (h : par.length = 10 * n) :
    regTree n par = some (.map [(some "dynamics", .map ((List.range n).map fun i => (some (linkName i), regNode par i)))]) := by
  unfold regTree
  rw [foldlM_some (g := fun y i => y.setKey (linkName i) (regNode par i)) _ (fun i hi a => by
    rw [linkNode_eq h (List.mem_range.1 hi)]; rfl),
    Yaml.foldl_setKey (base := .null) trivial linkName _ n (fun i _ j _ e => Wrap.linkName_injective e), if_neg (by omega)]
  rfl

omit [Fl] in
theorem regDoc_of {n : ℕ} {par : List Num} :
    RegDoc (.map [(some "dynamics", .map ((List.range n).map fun i => (some (linkName i), regNode par i)))]) n
      fun i k => par.getD (10 * i + k) none := by
  refine ⟨_, ⟨[], [], rfl, by simp⟩, by simp, fun i hi => ?_⟩
  refine ⟨regNode par i, _, by simp [hi]; rfl, ⟨[], [], rfl, by simp⟩, ?_⟩
  have key : ∀ k < 10, Number (.map ((List.range 10).map fun k => (some ((keys "m_CoM_").getD k ""), Yaml.ofD (par.getD (10 * i + k) none))))
      ((keys "m_CoM_").getD k "") (par.getD (10 * i + k) none) := by
    intro k hk
    have hr : List.range 10 = List.range k ++ k :: List.range' (k + 1) (9 - k) := by interval_cases k <;> rfl
    refine ⟨Yaml.ofD (par.getD (10 * i + k) none), ⟨(List.range k).map fun k => (some ((keys "m_CoM_").getD k ""), Yaml.ofD (par.getD (10 * i + k) none)),
      (List.range' (k + 1) (9 - k)).map fun k => (some ((keys "m_CoM_").getD k ""), Yaml.ofD (par.getD (10 * i + k) none)), ?_, ?_⟩, rfl⟩
    · rw [hr, List.map_append, List.map_cons]
    · intro e he hk'
      obtain ⟨j, hj, rfl⟩ := List.mem_map.1 he
      have hj := List.mem_range.1 hj
      have := Wrap.inertialKeys_inj (com := "m_CoM_") (.inl rfl) j (by omega) k hk (Option.some.inj hk')
      omega
  exact ⟨key 0 (by omega), key 1 (by omega), key 2 (by omega), key 3 (by omega), key 4 (by omega), key 5 (by omega), key 6 (by omega), key 7 (by omega),
    key 8 (by omega), key 9 (by omega)⟩

/-- What `save_par_REG` writes for a robot built from a file. -/
theorem saveReg_ok {y : Yaml} (h : Describes y c) (hn : 0 < c.n) (ht : Typed c) {us : List UserFun}
    (hu : ∀ u ∈ us, "par_REG" ∉ u.sure ++ u.possible) {name : String} {r : Robot} (e : robotFromFileWith us name (some y) true = .ok r) (hrn : r.n = c.n) :
    ∃ z r', saveParREG r = .ok z r' ∧ RegDoc z c.n fun i k => (r.arg "par_REG").getD (10 * i + k) none := by
  obtain ⟨h1, h2, h3⟩ := fromFileWith_reg h hn ht hu e
  refine ⟨_, r.touchArg "par_REG", ?_, regDoc_of⟩
  unfold saveParREG
  rw [bind_ok (modify_run _ _), bind_ok (read_run _), arg_touch, show (r.touchArg "par_REG").n = c.n from hrn, regTree_eq hn h2, ofExc_some]

/-- The entries of `par_REG` are the linear parameters. -/
theorem reg_values {y : Yaml} (h : Describes y c) (hn : 0 < c.n) (ht : Typed c) {us : List UserFun}
    (hu : ∀ u ∈ us, "par_REG" ∉ u.sure ++ u.possible) {name : String} {r : Robot} (e : robotFromFileWith us name (some y) true = .ok r) :
    (r.arg "par_REG").length = 10 * c.n ∧ ∀ i < c.n, ∀ k < 10, (r.arg "par_REG").getD (10 * i + k) none = some (linearOf c i k) := by
  obtain ⟨h1, h2, h3⟩ := fromFileWith_reg h hn ht hu e
  refine ⟨h2, fun i hi k hk => ?_⟩
  have hd : ∀ k < 10, (nums (10 * c.n) c.dyn)[10 * i + k]? = some (some (c.dyn (10 * i + k))) := by
    intro k hk
    simp [nums, List.getElem?_map, List.getElem?_range (show 10 * i + k < 10 * c.n by omega)]
  rcases h3 i hi with ⟨p, b1, b2⟩ | ⟨⟨k', hk', b1⟩, -⟩
  · have hp : ∀ k < 10, p k = c.dyn (10 * i + k) := by
      intro k hk
      have := (b1 k hk).symm.trans (hd k hk)
      simpa using this
    rw [List.getD_eq_getElem?_getD, b2 k hk]
    unfold linearOf mass com inertia
    rw [hp 0 (by omega), hp 1 (by omega), hp 2 (by omega), hp 3 (by omega), hp 4 (by omega), hp 5 (by omega), hp 6 (by omega), hp 7 (by omega),
      hp 8 (by omega), hp 9 (by omega)]
    rfl
  · rw [hd k' hk'] at b1
    simp at b1

end Robot

end

end Thunder

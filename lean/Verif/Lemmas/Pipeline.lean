import Verif.Lemmas.Keys

/-!
# Runs of the `compute_*` functions
-/

open scoped Classical

namespace Thunder

noncomputable section

open Spec Act

namespace Robot

variable {c : Conf} {r : Robot}

/-! ## The flags -/

theorem symb_robotOf (c : Conf) : (robotOf c).symb = insAll (symbOf c) (newSymb (partOf c) c.n) := by
  have : (partOf c).symb = symbOf c := by unfold partOf; dsimp only
  unfold robotOf
  dsimp only
  rw [this]

theorem sorted_symbOf (c : Conf) : SMap.Sorted (symbOf c) := by
  have h0 : SMap.Sorted ([] : SMap (List ℤ)) := List.Pairwise.nil
  unfold symbOf
  dsimp only
  repeat' refine SMap.Sorted.put ?_ _ _
  exact h0

theorem sorted_symb (c : Conf) : SMap.Sorted (robotOf c).symb := by
  rw [symb_robotOf]
  exact (sorted_symbOf c).insAll _

theorem flagsL_one (k : ℕ) : flagsL k (fun _ => 1) = ones k := by simp [flagsL, ones]

set_option linter.unusedSimpArgs false in
theorem find_symbOf (c : Conf) (k : Key) : (symbOf c).find k.str = if k.isVar then none else some (k.flags c) := by
  unfold symbOf
  dsimp only
  simp only [SMap.find_put]
  cases k <;> cases hel : c.elastic <;>
    simp [Key.str, Key.isVar, Key.flags, Key.size, Key.flag, elaFlags, hel, Nat.mul_comm, flagsL]

set_option linter.unusedSimpArgs false in
theorem find_newSymb (c : Conf) (k : Key) : SMap.find (newSymb (partOf c) c.n) k.str = if k.isVar ∧ k.listed c then some (k.flags c) else none := by
  have he : (partOf c).elastic = c.elastic := rfl
  have hn : (partOf c).ne = c.ne := rfl
  unfold newSymb
  rw [he, hn]
  cases k <;> cases hel : c.elastic <;>
    simp [SMap.find_cons, Key.isVar, Key.str, Key.listed, Key.flags, Key.size, Key.flag, hel, flagsL_one, ← flagsL_one]

/-- `symb` of a new robot. -/
theorem find_symb (c : Conf) (k : Key) : (robotOf c).symb.find k.str = if k.listed c then some (k.flags c) else none := by
  rw [symb_robotOf, find_insAll, find_symbOf, find_newSymb]
  by_cases hv : k.isVar = true
  · simp [hv]
  · have hl : k.listed c := by cases k <;> trivial
    simp [hv, hl]

theorem key_of_symbOf {p : String × List ℤ} (h : p ∈ symbOf c) : ∃ k : Key, p.1 = k.str := by
  unfold symbOf at h
  dsimp only at h
  rcases SMap.mem_put_key h with h | h
  · exact ⟨.grav, h⟩
  rcases SMap.mem_put_key h with h | h
  · exact ⟨.EE, h⟩
  rcases SMap.mem_put_key h with h | h
  · exact ⟨.W2L, h⟩
  rcases SMap.mem_put_key h with h | h
  · exact ⟨.DH, h⟩
  rcases SMap.mem_put_key h with h | h
  · exact ⟨.Mm, h⟩
  rcases SMap.mem_put_key h with h | h
  · exact ⟨.Dm, h⟩
  rcases SMap.mem_put_key h with h | h
  · exact ⟨.D, h⟩
  rcases SMap.mem_put_key h with h | h
  · exact ⟨.K, h⟩
  rcases SMap.mem_put_key h with h | h
  · exact ⟨.Dl, h⟩
  rcases SMap.mem_put_key h with h | h
  · exact ⟨.DYN, h⟩
  · exact absurd h List.not_mem_nil

theorem key_of_newSymb {p : String × List ℤ} (h : p ∈ newSymb (partOf c) c.n) : ∃ k : Key, p.1 = k.str := by
  have hl : p.1 ∈ (newSymb (partOf c) c.n).map Prod.fst := List.mem_map_of_mem h
  have : p.1 ∈ ["q", "dq", "ddq", "d3q", "d4q", "dqr", "ddqr", "w", "x", "dx", "ddx", "ddxr"] := by
    unfold newSymb at hl
    split_ifs at hl <;> simp at hl ⊢ <;> tauto
  simp only [List.mem_cons, List.not_mem_nil, or_false] at this
  rcases this with h | h | h | h | h | h | h | h | h | h | h | h
  exacts [⟨.q, h⟩, ⟨.dq, h⟩, ⟨.ddq, h⟩, ⟨.d3q, h⟩, ⟨.d4q, h⟩, ⟨.dqr, h⟩, ⟨.ddqr, h⟩, ⟨.w, h⟩, ⟨.x, h⟩, ⟨.dx, h⟩, ⟨.ddx, h⟩, ⟨.ddxr, h⟩]

theorem key_of_mem_symb {p : String × List ℤ} (h : p ∈ (robotOf c).symb) : ∃ k : Key, k.listed c ∧ p = (k.str, k.flags c) := by
  have hf := (sorted_symb c).find_of_mem h
  have hk : ∃ k : Key, p.1 = k.str := by
    rw [symb_robotOf] at h
    rcases mem_insAll h with h | h
    · exact key_of_symbOf h
    · exact key_of_newSymb h
  obtain ⟨k, hk⟩ := hk
  have h2 := find_symb c k
  rw [← hk, hf] at h2
  by_cases hl : k.listed c
  · rw [if_pos hl] at h2
    refine ⟨k, hl, ?_⟩
    rw [← hk, ← Option.some.inj h2]
  · rw [if_neg hl] at h2; cases h2

/-! ## The state of a robot between two steps of `robot_from_file` -/

/-- Members that never change. -/
structure Fixed (c : Conf) (r : Robot) : Prop where
  n : r.n = c.n
  ne : r.ne = c.ne
  elastic : r.elastic = c.elastic
  types : r.types = c.types
  kI : r.kI = c.kO
  dI : r.dI = c.dO
  dlI : r.dlI = c.dlO
  dmI : r.dmI = c.dmO
  symb : r.symb = (robotOf c).symb

theorem Fixed.kOrd (h : Fixed c r) : r.kOrd = c.kO := by simp [Robot.kOrd, h.kI]
theorem Fixed.dOrd (h : Fixed c r) : r.dOrd = c.dO := by simp [Robot.dOrd, h.dI]
theorem Fixed.dlOrd (h : Fixed c r) : r.dlOrd = c.dlO := by simp [Robot.dlOrd, h.dlI]
theorem Fixed.dmOrd (h : Fixed c r) : r.dmOrd = c.dmO := by simp [Robot.dmOrd, h.dmI]

theorem Fixed.flags (h : Fixed c r) (k : Key) : r.flags k.str = k.flags c := by
  unfold Robot.flags SMap.get
  rw [h.symb, find_symb]
  split_ifs with hl
  · rfl
  · have : k.size c = 0 := Key.size_of_not_here fun hh => hl (Key.listed_of_here hh)
    simp [Key.flags, flagsL, this]

theorem Fixed.hasSymb (h : Fixed c r) {k : Key} (hk : k.listed c) : r.symb.has k.str = true := by
  unfold SMap.has
  rw [h.symb, find_symb, if_pos hk]; rfl

/-- The vectors are `mt`, and the values are those of the file. -/
structure State (c : Conf) (mt : Key → SX) (r : Robot) : Prop extends Fixed c r where
  model : ∀ k : Key, r.model.find k.str = if k.here c then some (mt k) else none
  arg : ∀ k : Key, r.arg k.str = nums (k.size c) (k.val c)

variable {mt : Key → SX}

theorem State.mod (h : State c mt r) {k : Key} (hk : k.here c) : r.mod k.str = mt k := by
  simp [Robot.mod, SMap.get, h.model, hk]
theorem State.hasModel (h : State c mt r) {k : Key} (hk : k.here c) : r.model.has k.str = true := by
  simp [SMap.has, h.model, hk]

/-! ## `init_symb_parameters` -/

/-- Numbers for the entries from `a` on that are not symbolic. -/
def subFrom (c : Conf) (k : Key) (a : ℕ) (A : SX) : SX :=
  { A with e := fun i j => if a ≤ i ∧ i < k.size c ∧ j = 0 ∧ k.flag c i = 0 then .const (k.val c i) else A.e i j }

theorem subsLoop_ok (k : Key) : ∀ (fl : List ℤ) (a : ℕ) (r : Robot) (A : SX), a + fl.length = k.size c → (∀ i, fl.getD i 0 = if i < fl.length then k.flag c (a + i) else 0) →
    r.model.find k.str = some A → A.rows = k.size c → A.cols = 1 → r.arg k.str = nums (k.size c) (k.val c) →
    ∃ r', subsLoop k.str a fl r = .ok () r' ∧ r' = { r with args := r'.args, model := r'.model } ∧ (∀ s, r'.arg s = r.arg s) ∧
      r'.model.find k.str = some (subFrom c k a A) ∧ ∀ s, s ≠ k.str → r'.model.find s = r.model.find s := by
  intro fl
  induction fl with
  | nil =>
    intro a r A ha _ hA _ _ _
    refine ⟨r, rfl, rfl, fun _ => rfl, ?_, fun _ _ => rfl⟩
    rw [hA]
    congr 1
    have : (fun i j => if a ≤ i ∧ i < k.size c ∧ j = 0 ∧ k.flag c i = 0 then .const (k.val c i) else A.e i j) = A.e := by
      funext i j
      rw [if_neg]
      simp only [List.length_nil] at ha
      omega
    simp only [subFrom, this]
  | cons f fl ih =>
    intro a r A ha hfl hA hr hc harg
    have hlt : a < k.size c := by simp only [List.length_cons] at ha; omega
    have hf : f = k.flag c a := by simpa using hfl 0
    have hfl' : ∀ i, fl.getD i 0 = if i < fl.length then k.flag c (a + 1 + i) else 0 := by
      intro i
      have := hfl (i + 1)
      simp only [List.getD_cons_succ, List.length_cons, Nat.add_lt_add_iff_right] at this
      rw [this, show a + (i + 1) = a + 1 + i by omega]
    have hlen : a + 1 + fl.length = k.size c := by simp only [List.length_cons] at ha; omega
    unfold subsLoop
    by_cases h0 : f = 0
    · have hget : (r.arg k.str)[a]? = some (some (k.val c a)) := by rw [harg]; simp [nums, hlt]
      have hmod : r.mod k.str = A := by simp [Robot.mod, SMap.get, hA]
      obtain ⟨A', hA'⟩ : ∃ A' : SX, A' = { A with e := fun i j => if i = a ∧ j = 0 then .const (k.val c a) else A.e i j } := ⟨_, rfl⟩
      have hset : setRow (r.mod k.str) a (.const (k.val c a)) = some A' := by
        rw [hmod, setRow, if_pos ⟨by omega, hc⟩, hA']
      obtain ⟨r₁, hr₁⟩ : ∃ r₁ : Robot, r₁ = { r with args := r.args.ins k.str [], model := r.model.put k.str A' } := ⟨_, rfl⟩
      have harg₁ : ∀ s, r₁.arg s = r.arg s := by intro s; rw [hr₁]; exact SMap.get_ins_default _ _ _ _
      obtain ⟨r', e, h1, h2, h3, h4⟩ := ih (a + 1) r₁ A' hlen hfl' (by rw [hr₁]; exact SMap.find_put_same _ _ _) (by rw [hA']; exact hr)
        (by rw [hA']; exact hc) (by rw [harg₁, harg])
      refine ⟨r', ?_, ?_, fun s => (h2 s).trans (harg₁ s), ?_, fun s hs => ?_⟩
      · simp only [h0, if_true]
        rw [bind_ok (read_run _), hget, bind_ok (ofExc_some _ _), bind_ok (ofIdx_some _ _), hset, bind_ok (ofExc_some _ _), bind_ok (modify_run _ _),
          ← hr₁]
        exact e
      · rw [h1, hr₁]
      · rw [h3]
        congr 1
        unfold subFrom
        have : A = { A' with e := A.e } := by rw [hA']
        rw [this]
        simp only
        congr 1
        funext i j
        rw [hA']
        simp only
        by_cases hi : i = a ∧ j = 0
        · obtain ⟨rfl, rfl⟩ := hi
          rw [if_neg (by omega), if_pos ⟨rfl, rfl⟩, if_pos ⟨le_refl _, hlt, rfl, hf ▸ h0⟩]
        · rw [if_neg hi]
          refine if_congr ?_ rfl rfl
          constructor
          · rintro ⟨h1, h2, h3, h4⟩; exact ⟨by omega, h2, h3, h4⟩
          · rintro ⟨h1, h2, h3, h4⟩; exact ⟨by omega, h2, h3, h4⟩
      · rw [h4 s hs, hr₁]
        exact SMap.find_put_ne _ _ (Ne.symm hs)
    · obtain ⟨r', e, h1, h2, h3, h4⟩ := ih (a + 1) r A hlen hfl' hA hr hc harg
      refine ⟨r', ?_, h1, h2, ?_, h4⟩
      · simp only [h0, if_false]
        exact e
      · rw [h3]
        congr 1
        unfold subFrom
        congr 1
        funext i j
        refine if_congr ?_ rfl rfl
        constructor
        · rintro ⟨h1, h2, h3, h4⟩; exact ⟨by omega, h2, h3, h4⟩
        · rintro ⟨h1, h2, h3, h4⟩
          refine ⟨?_, h2, h3, h4⟩
          rcases Nat.eq_or_lt_of_le h1 with rfl | h
          · exact absurd (hf.trans h4) h0
          · exact h

theorem subsSymb_ok (h : State c mt r) (k : Key) (hk : k.listed c) (hr : k.here c → (mt k).rows = k.size c ∧ (mt k).cols = 1) :
    ∃ r', subsSymb k.str r = .ok () r' ∧ State c (Function.update mt k (subFrom c k 0 (mt k))) r' ∧
      r' = { r with args := r'.args, model := r'.model } ∧ ∀ s, (∀ k : Key, s ≠ k.str) → r'.model.find s = r.model.find s := by
  have hins : r.symb.ins k.str [] = r.symb := by rw [SMap.ins, if_pos (h.hasSymb hk)]
  have hrun : ∀ r', subsLoop k.str 0 (k.flags c) r = .ok () r' → subsSymb k.str r = .ok () r' := by
    intro r' e
    unfold subsSymb
    rw [bind_ok (read_run _), bind_ok (modify_run _ _), hins, h.flags]
    exact e
  by_cases hh : k.here c
  · obtain ⟨r', e, h1, h2, h3, h4⟩ := subsLoop_ok (c := c) k (k.flags c) 0 r (mt k) (by simp [Key.flags, flagsL])
      (fun i => by
        simp only [Key.flags, flagsL, List.length_map, List.length_range, Nat.zero_add]
        split_ifs with hi
        · exact Key.getD_flags hi
        · simp [List.getD_eq_getElem?_getD, hi])
      (by rw [h.model, if_pos hh]) (hr hh).1 (hr hh).2 (h.arg k)
    refine ⟨r', hrun r' e, ⟨?_, fun k' => ?_, fun k' => ?_⟩, h1, fun s hs => h4 s (hs k)⟩
    · rw [h1]
      exact ⟨h.n, h.ne, h.elastic, h.types, h.kI, h.dI, h.dlI, h.dmI, h.symb⟩
    · by_cases e' : k' = k
      · subst e'
        rw [h3, if_pos hh, Function.update_self]
      · rw [h4 _ (fun e2 => e' (Key.str_inj e2)), h.model, Function.update_of_ne e']
    · rw [h2, h.arg]
  · have h0 : k.flags c = [] := by simp [Key.flags, flagsL, Key.size_of_not_here hh]
    refine ⟨r, hrun r (by rw [h0]; rfl), ⟨h.toFixed, fun k' => ?_, h.arg⟩, rfl, fun _ _ => rfl⟩
    by_cases e' : k' = k
    · subst e'
      rw [h.model, if_neg hh, if_neg hh]
    · rw [h.model, Function.update_of_ne e']

theorem foldl_acts {σ β : Type} {f : β → Act σ Unit} (l : List β) : ∀ (a : Act σ Unit) {s s' : σ}, a s = .ok () s' →
    (l.foldl (fun a p => a >>= fun _ => f p) a) s = (l.foldr (fun p k => f p >>= fun _ => k) (pure ())) s' := by
  induction l with
  | nil => intro a s s' h; exact h
  | cons p l ih =>
    intro a s s' h
    rw [List.foldl_cons, List.foldr_cons]
    cases hp : f p s' with
    | ok u s'' => rw [bind_ok hp]; exact ih _ ((bind_ok h).trans hp)
    | yaml s'' =>
      rw [bind_yaml hp]
      have h1 : (a >>= fun _ => f p) s = .yaml s'' := (bind_ok h).trans hp
      clear h hp ih
      generalize (a >>= fun _ => f p) = b at h1
      induction l generalizing b with
      | nil => exact h1
      | cons q l ih => exact ih _ (bind_yaml h1)
    | exc s'' =>
      rw [bind_exc hp]
      have h1 : (a >>= fun _ => f p) s = .exc s'' := (bind_ok h).trans hp
      clear h hp ih
      generalize (a >>= fun _ => f p) = b at h1
      induction l generalizing b with
      | nil => exact h1
      | cons q l ih => exact ih _ (bind_exc h1)
    | ub =>
      rw [bind_ub hp]
      have h1 : (a >>= fun _ => f p) s = .ub := (bind_ok h).trans hp
      clear h hp ih
      generalize (a >>= fun _ => f p) = b at h1
      induction l generalizing b with
      | nil => exact h1
      | cons q l ih => exact ih _ (bind_ub h1)

theorem initLoop_ok : ∀ (l : List (String × List ℤ)) (mt : Key → SX) (r : Robot), (∀ p ∈ l, ∃ k : Key, k.listed c ∧ p = (k.str, k.flags c)) →
    (l.map Prod.fst).Nodup → State c mt r → (∀ k : Key, k.here c → (mt k).rows = k.size c ∧ (mt k).cols = 1) →
    ∃ r', l.foldr (fun p k => subsSymb p.1 >>= fun _ => k) (pure ()) r = .ok () r' ∧
      State c (fun k => if k.str ∈ l.map Prod.fst then subFrom c k 0 (mt k) else mt k) r' ∧
      r' = { r with args := r'.args, model := r'.model } ∧ ∀ s, (∀ k : Key, s ≠ k.str) → r'.model.find s = r.model.find s := by
  intro l
  induction l with
  | nil => intro mt r _ _ h _; exact ⟨r, rfl, by simpa using h, rfl, fun _ _ => rfl⟩
  | cons p l ih =>
    intro mt r hl hn h hs
    obtain ⟨k, hk, rfl⟩ := hl p List.mem_cons_self
    obtain ⟨hn1, hn2⟩ := List.nodup_cons.1 hn
    obtain ⟨r₁, e₁, h₁, x₁, y₁⟩ := subsSymb_ok h k hk (hs k)
    obtain ⟨r', e', h', x', y'⟩ := ih _ r₁ (fun p hp => hl p (List.mem_cons_of_mem _ hp)) hn2 h₁ (fun k' hk' => by
      by_cases e : k' = k
      · subst e; rw [Function.update_self]; exact hs k' hk'
      · rw [Function.update_of_ne e]; exact hs k' hk')
    refine ⟨r', by rw [List.foldr_cons, bind_ok e₁]; exact e', ?_, by rw [x', x₁], fun s hs => (y' s hs).trans (y₁ s hs)⟩
    have : (fun k' : Key => if k'.str ∈ l.map Prod.fst then subFrom c k' 0 (Function.update mt k (subFrom c k 0 (mt k)) k')
        else Function.update mt k (subFrom c k 0 (mt k)) k') =
        fun k' => if k'.str ∈ List.map Prod.fst ((k.str, k.flags c) :: l) then subFrom c k' 0 (mt k') else mt k' := by
      funext k'
      by_cases e : k' = k
      · subst e
        rw [if_neg hn1, Function.update_self, if_pos (by simp)]
      · rw [Function.update_of_ne e]
        refine if_congr ?_ rfl rfl
        have : k'.str ≠ k.str := fun e2 => e (Key.str_inj e2)
        simp [this]
    rw [this] at h'
    exact h'

theorem initSymb_ok (h : State c (Key.symMat c) r) : ∃ r', initSymb r = .ok () r' ∧ State c (Key.mat c) r' ∧
    r' = { r with args := r'.args, model := r'.model } ∧ ∀ s, (∀ k : Key, s ≠ k.str) → r'.model.find s = r.model.find s := by
  obtain ⟨r', e, h', x, y⟩ := initLoop_ok r.symb (Key.symMat c) r (fun p hp => key_of_mem_symb (by rwa [h.symb] at hp))
    (by rw [h.symb]; exact (sorted_symb c).nodup) h fun k _ => ⟨rfl, rfl⟩
  refine ⟨r', ?_, ?_, x, y⟩
  · unfold initSymb
    rw [bind_ok (read_run _), foldl_acts _ _ (pure_run () r)]
    exact e
  · refine ⟨h'.toFixed, fun k => ?_, h'.arg⟩
    rw [h'.model]
    refine if_congr Iff.rfl ?_ rfl
    congr 1
    have hm : k.listed c → k.str ∈ r.symb.map Prod.fst := by
      intro hk
      have := find_symb c k
      rw [if_pos hk, ← h.symb] at this
      exact List.mem_map_of_mem (SMap.mem_of_find this)
    by_cases hh : k.listed c
    · rw [if_pos (hm hh)]
      unfold subFrom Key.mat
      congr 1
      funext i j
      exact if_congr (by simp) rfl rfl
    · have h0 : k.size c = 0 := Key.size_of_not_here fun hx => hh (Key.listed_of_here hx)
      have e1 : k.mat c = k.symMat c := by
        unfold Key.mat
        have : (fun i j => if i < k.size c ∧ j = 0 ∧ k.flag c i = 0 then Expr.const (k.val c i) else (k.symMat c).e i j) = (k.symMat c).e := by
          funext i j
          rw [if_neg (by omega)]
        rw [this]
      have e2 : subFrom c k 0 (k.symMat c) = k.symMat c := by
        unfold subFrom
        have : (fun i j => if 0 ≤ i ∧ i < k.size c ∧ j = 0 ∧ k.flag c i = 0 then Expr.const (k.val c i) else (k.symMat c).e i j) = (k.symMat c).e := by
          funext i j
          rw [if_neg (by omega)]
        rw [this]
      split_ifs
      · rw [e1, e2]
      · rw [e1]

end Robot

end

end Thunder

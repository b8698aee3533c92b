import Verif.Lemmas.WrapperInv

/-!
# Wrapper class: sizes of the buffers read by the generated code
-/

namespace Thunder.Wrap

open Thunder.Spec (reads)

theorem mapM_eq_map {α β : Type} {f : α → Option β} {g : α → β} : ∀ {l : List α}, (∀ a ∈ l, f a = some (g a)) → l.mapM f = some (l.map g)
  | [], _ => rfl
  | a :: l, h => by
    rw [List.mapM_cons, h a List.mem_cons_self, mapM_eq_map (g := g) fun b hb => h b (List.mem_cons_of_mem _ hb)]
    rfl

/-- The selected entries. -/
def sel (v : List Num) (flags : List ℤ) (off k : ℕ) : List Num :=
  (List.range k).flatMap fun i => if flags.getD (off + i) 0 = 0 then [] else [v.getD i none]

theorem pick_eq {v : List Num} {flags : List ℤ} {off k : ℕ} (hf : off + k ≤ flags.length) (hv : k ≤ v.length) :
    pick v flags off k = some (sel v flags off k) := by
  unfold pick sel
  rw [mapM_eq_map (g := fun i => if flags.getD (off + i) 0 = 0 then [] else [v.getD i none])]
  · rw [Option.map_some, List.flatMap_def]
  · intro i hi
    have hi := List.mem_range.mp hi
    have h1 : off + i < flags.length := by omega
    have h2 : i < v.length := by omega
    simp only [List.getElem?_eq_getElem h1, List.getElem?_eq_getElem h2, Option.bind_some, Option.map_some, List.getD_eq_getElem?_getD,
      Option.getD_some]
    split <;> rfl

theorem reads_append (a b : List ℤ) : reads (a ++ b) = reads a + reads b := by simp [reads]

theorem reads_le (a : List ℤ) : reads a ≤ a.length := List.length_filter_le _ _

theorem length_sel (v : List Num) (flags : List ℤ) (off : ℕ) : ∀ k, off + k ≤ flags.length →
    (sel v flags off k).length = reads ((flags.drop off).take k)
  | 0, _ => by simp [sel, reads]
  | k + 1, h => by
    have ih := length_sel v flags off k (by omega)
    have h1 : off + k < flags.length := by omega
    have h2 : k < (flags.drop off).length := by simp; omega
    have : (flags.drop off).take (k + 1) = (flags.drop off).take k ++ [(flags.drop off)[k]] := List.take_succ_eq_append_getElem h2
    rw [this, reads_append, ← ih, sel, List.range_succ, List.flatMap_append, List.length_append]
    congr 1
    simp only [List.flatMap_singleton, List.getElem_drop, List.getD_eq_getElem?_getD, List.getElem?_eq_getElem h1, Option.getD_some]
    by_cases h0 : flags[off + k] = 0 <;> simp [h0, reads]

/-- The member a selection vector belongs to. -/
def SField.field : SField → Field
  | .DH => .DH | .G => .G | .W2L => .W2L | .EE => .EE

theorem symbSize_eq (c : Cfg) (f : SField) : c.symbSize f = c.size f.field := by cases f <;> rfl

/-- The buffer invariant. -/
structure Buf (c : Cfg) (pat : Field → List ℤ) (s : Obj) : Prop where
  fixed : ∀ f, ¬ f.Compacted → (s.vec f).length = c.size f
  big : ∀ f, reads (pat f) ≤ (s.vec f).length
  flags : ∀ sf, s.symb sf = pat sf.field ∨ s.symb sf = List.replicate (c.symbSize sf) 0

variable {c : Cfg} {pat : Field → List ℤ}

theorem Buf.set {s : Obj} (h : Buf c pat s) {f : Field} {v : List Num} (h1 : ¬ f.Compacted → v.length = c.size f) (h2 : reads (pat f) ≤ v.length) :
    Buf c pat (s.set f v) := by
  refine ⟨Sized.set h.fixed h1, fun g => ?_, h.flags⟩
  by_cases e : g = f
  · subst e; rw [set_vec_same]; exact h2
  · rw [set_vec_ne _ _ e]; exact h.big g

theorem Buf.set' {s : Obj} (h : Buf c pat s) {f : Field} {v : List Num} (hv : v.length = (s.vec f).length) : Buf c pat (s.set f v) :=
  h.set (fun hf => hv.trans (h.fixed f hf)) (by rw [hv]; exact h.big f)

theorem Buf.full {s : Obj} (hp : ∀ f, (pat f).length = c.size f) (h : Buf c pat s) {f : Field} {v : List Num} (hv : v.length = c.size f) :
    Buf c pat (s.set f v) := h.set (fun _ => hv) (by rw [hv, ← hp f]; exact reads_le _)

theorem Buf.setSymb {s : Obj} (h : Buf c pat s) {f : SField} : Buf c pat (s.setSymb f (pat f.field)) := by
  refine ⟨h.fixed, h.big, fun g => ?_⟩
  by_cases e : g = f
  · subst e; left; simp [Obj.setSymb]
  · rw [show (s.setSymb f (pat f.field)).symb g = s.symb g from Function.update_of_ne e _ _]; exact h.flags g

theorem buf_init (hp : ∀ f, (pat f).length = c.size f) : Buf c pat (init c) :=
  ⟨sized_init c, fun f => by rw [show ((init c).vec f).length = c.size f by simp [init], ← hp f]; exact reads_le _, fun sf => Or.inr rfl⟩

theorem safe_readSymb (hp : ∀ f, (pat f).length = c.size f) {nd : Yaml} {f : SField} (hn : Spec.SymbIs nd (pat f.field)) {s : Obj} {k : Obj → Out}
    (h : Buf c pat s) (hk : ∀ s', Buf c pat s' → s'.vec = s.vec → s'.symb f = pat f.field → (k s').Safe (Buf c pat)) :
    (readSymb nd f s k).Safe (Buf c pat) := by
  unfold readSymb
  refine safe_yaml h fun sy hsy => ?_
  have hn := hn sy hsy
  by_cases hd : sy.isDef = true
  · rw [if_pos hd] at hn ⊢
    refine safe_yaml h fun fl hfl => ?_
    rw [hn fl hfl]
    exact hk _ h.setSymb rfl (by simp [Obj.setSymb])
  · rw [if_neg hd] at hn ⊢
    refine hk s h rfl ?_
    rcases h.flags f with e | e
    · exact e
    · rw [e, hn, symbSize_eq, hp]

theorem safe_loadKin (hp : ∀ f, (pat f).length = c.size f) {y : Yaml} (hy : Spec.FileFor c pat y) {s : Obj} (h : Buf c pat s) :
    (loadKin c y s).Safe (Buf c pat) := by
  unfold loadKin
  refine safe_yaml h fun kin hkin => ?_
  by_cases hd : kin.isDef = true
  · obtain ⟨hsy, hdh⟩ := hy.kin kin hkin hd
    simp only [if_pos hd]
    have h1 : Buf c pat (s.set .DH (resize (s.vec .DH) (c.n * 4))) := h.full hp (length_resize _ _)
    refine safe_yaml h1 fun dh hdh' => safe_readSymb hp hsy h1 fun s' h' hv hs => ?_
    have hl := hdh dh hdh'
    have hpl := hp .DH
    have hfl : 0 + dh.length ≤ (s'.symb .DH).length := by rw [hs, hl]; exact le_of_eq (by rw [hpl.symm]; simp [SField.field])
    have hlen : (s'.vec .DH).length = c.n * 4 := by rw [hv, set_vec_same, length_resize]
    have hsel := length_sel dh (s'.symb .DH) 0 dh.length hfl
    have hle : (sel dh (s'.symb .DH) 0 dh.length).length ≤ c.n * 4 := by
      rw [hsel]; refine (reads_le _).trans ?_; simp [hl, Cfg.size]
    refine safe_must (pick_eq hfl le_rfl) (safe_must (setSeg_some (by rw [hlen]; omega)) ?_)
    refine h'.set (fun hf => absurd trivial hf) ?_
    rw [length_conservativeResize, hsel, hs, hl, List.drop_zero, ← hpl]
    simp [SField.field]
  · simp only [if_neg hd]
    exact h

theorem safe_loadFrame (hp : ∀ f, (pat f).length = c.size f) {name : String} {sf : SField} (h6 : c.size sf.field = 6) {y : Yaml}
    (hy : ∀ nd, y.getM name = some nd → nd.isDef = true → Spec.SymbIs nd (pat sf.field) ∧ Spec.VecMin nd "tr" 3 ∧ Spec.VecMin nd "ypr" 3)
    (hcomp : sf.field.Compacted) {s : Obj} (h : Buf c pat s) : (loadFrame name sf.field sf y s).Safe (Buf c pat) := by
  unfold loadFrame
  refine safe_yaml h fun fr hfr => ?_
  by_cases hd : fr.isDef = true
  · obtain ⟨hsy, htr, hypr⟩ := hy fr hfr hd
    simp only [if_pos hd]
    have h1 : Buf c pat (s.set sf.field (resize (s.vec sf.field) 6)) := h.full hp (by rw [length_resize, h6])
    refine safe_readSymb hp hsy h1 fun s' h' hv hs => safe_yaml h' fun tr htr' => safe_yaml h' fun ypr hypr' => ?_
    have hpl : (s'.symb sf).length = 6 := by rw [hs, hp, h6]
    have hlen : (s'.vec sf.field).length = 6 := by rw [hv, set_vec_same, length_resize]
    have ha := length_sel tr (s'.symb sf) 0 3 (by omega)
    have hb := length_sel ypr (s'.symb sf) 3 3 (by omega)
    have hab : (sel tr (s'.symb sf) 0 3 ++ sel ypr (s'.symb sf) 3 3).length = reads (pat sf.field) := by
      have h33 : (s'.symb sf).take 3 ++ ((s'.symb sf).drop 3).take 3 = s'.symb sf := by
        rw [List.take_of_length_le (l := (s'.symb sf).drop 3) (by simp; omega), List.take_append_drop]
      rw [List.length_append, ha, hb, List.drop_zero, ← reads_append, h33, hs]
    have hle : reads (pat sf.field) ≤ 6 := by rw [← h6, ← hp sf.field]; exact reads_le _
    refine safe_must (pick_eq (by omega) (htr tr htr')) (safe_must (pick_eq (by omega) (hypr ypr hypr')) (safe_must (setSeg_some ?_) ?_))
    · rw [hab, hlen]; omega
    · refine h'.set (fun hf => absurd hcomp hf) ?_
      rw [length_conservativeResize, hab]
  · simp only [if_neg hd]
    exact h

theorem safe_loadGrav (hp : ∀ f, (pat f).length = c.size f) {y : Yaml} (hy : Spec.FileFor c pat y) {s : Obj} (h : Buf c pat s) :
    (loadGrav y s).Safe (Buf c pat) := by
  unfold loadGrav
  refine safe_yaml h fun gr hgr => ?_
  by_cases hd : gr.isDef = true
  · obtain ⟨hsy, hval⟩ := hy.grav gr hgr hd
    simp only [if_pos hd]
    have h1 : Buf c pat (s.set .G (resize (s.vec .G) 3)) := h.full hp (length_resize _ _)
    refine safe_readSymb (f := .G) hp hsy h1 fun s' h' hv hs => safe_yaml h' fun g hg => ?_
    have hpl : (s'.symb .G).length = 3 := by rw [hs]; exact hp .G
    have hlen : (s'.vec .G).length = 3 := by rw [hv, set_vec_same, length_resize]
    have ha := length_sel g (s'.symb .G) 0 3 (by omega)
    have hab : (sel g (s'.symb .G) 0 3).length = reads (pat .G) := by
      rw [ha, List.drop_zero, List.take_of_length_le (by omega), hs]; rfl
    have hle : reads (pat .G) ≤ 3 := (reads_le _).trans (le_of_eq (hp .G))
    refine safe_must (pick_eq (by omega) (hval g hg)) (safe_must (setSeg_some ?_) ?_)
    · rw [hab, hlen]; omega
    · refine h'.set (fun hf => absurd trivial hf) ?_
      rw [length_conservativeResize, hab]
  · simp only [if_neg hd]
    exact h

theorem safe_writeOrd {P : Obj → Prop} {ord i m : ℕ} (hi : i < m) {xs v : List Num} (hx : ord ≤ xs.length) (hv : v.length = ord * m)
    {k : List Num → Out} (hk : ∀ u, u.length = v.length → (k u).Safe P) : (must (writeOrd ord i xs v) k).Safe P := by
  have htk : (xs.take ord).length = ord := by simp; omega
  have hfit : ord * i + ord ≤ ord * m := by rw [← Nat.mul_succ]; exact Nat.mul_le_mul_left _ (by omega)
  refine safe_must (a := splice v (ord * i) (xs.take ord)) ?_ (hk _ (length_splice (by omega)))
  rw [writeOrd, if_neg (by omega), setSeg_some (by omega)]

theorem safe_dynLoop : ∀ (l : List (Option String × Yaml)) (i : ℕ) (s : Obj), i ≤ c.n →
    (∀ e ∈ l, ∀ fr, e.2.getC "friction" = some fr → Spec.VecMinC fr "Dl" c.dlOrd) → Buf c pat s → (dynLoop c l i s).Safe (Buf c pat)
  | [], _, _, _, _, h => h
  | (key, nd) :: rest, i, s, hi, hl, h => by
    have hrest : ∀ e ∈ rest, ∀ fr, e.2.getC "friction" = some fr → Spec.VecMinC fr "Dl" c.dlOrd := fun e he =>
      hl e (List.mem_cons_of_mem _ he)
    unfold dynLoop
    by_cases hn : i = c.n
    · rw [if_pos hn]; exact h
    · rw [if_neg hn]
      refine safe_yaml h fun inertial _ => safe_yaml h fun _ _ => safe_yaml h fun p hp' => ?_
      have hd : (s.vec .DYN).length = 10 * c.n := h.fixed .DYN id
      have hlen := length_readInertial hp'
      refine safe_must (setSeg_some (by omega)) ?_
      have h1 : Buf c pat (s.set .DYN (splice (s.vec .DYN) (10 * i) p)) := h.set' (length_splice (by omega))
      refine safe_yaml h1 fun fr hfr => ?_
      split
      · refine safe_yaml h1 fun dl hdl => ?_
        refine safe_writeOrd (by omega : i < c.n) (hl _ List.mem_cons_self fr hfr dl hdl) (h1.fixed .Dl id) fun u hu => ?_
        exact safe_dynLoop rest (i + 1) _ (by omega) hrest (h1.set' hu)
      · exact safe_dynLoop rest (i + 1) _ (by omega) hrest h1

theorem safe_readOrd {ord i m : ℕ} (hi : i < m) {key : String} {f : Field} (hf : ¬ f.Compacted) (hfs : c.size f = ord * m) {nd : Yaml}
    (hn : Spec.VecMinC nd key ord) {s : Obj} {k : Obj → Out}
    (h : Buf c pat s) (hk : ∀ s, Buf c pat s → (k s).Safe (Buf c pat)) : (readOrd ord i key f nd s k).Safe (Buf c pat) := by
  unfold readOrd
  split
  · exact hk s h
  · exact safe_yaml h fun xs hxs => safe_writeOrd hi (hn xs hxs) ((h.fixed f hf).trans hfs) fun u hu => hk _ (h.set' hu)

theorem safe_elaLoop : ∀ (l : List (Option String × Yaml)) (i : ℕ) (s : Obj), i ≤ c.ne →
    (∀ e ∈ l, Spec.VecMinC e.2 "K" c.kOrd ∧ Spec.VecMinC e.2 "D" c.dOrd ∧ Spec.VecMinC e.2 "Dm" c.dmOrd) → Buf c pat s →
    (elaLoop c l i s).Safe (Buf c pat)
  | [], _, _, _, _, h => h
  | (key, nd) :: rest, i, s, hi, hl, h => by
    unfold elaLoop
    by_cases hn : i = c.ne
    · rw [if_pos hn]; exact h
    · rw [if_neg hn]
      have hi' : i < c.ne := by omega
      obtain ⟨hK, hD, hDm⟩ := hl _ List.mem_cons_self
      refine safe_yaml h fun _ _ => ?_
      refine safe_readOrd hi' (f := .K) id rfl hK h fun s h => ?_
      refine safe_readOrd hi' (f := .D) id rfl hD h fun s h => ?_
      refine safe_readOrd hi' (f := .Dm) id rfl hDm h fun s h => ?_
      refine safe_yaml h fun m _ => ?_
      have hm : (s.vec .Mm).length = c.ne := h.fixed .Mm id
      refine safe_must (setSeg_some (by simp; omega)) ?_
      exact safe_elaLoop rest (i + 1) _ (by omega) (fun e he => hl e (List.mem_cons_of_mem _ he)) (h.set' (length_splice (by simp; omega)))

theorem safe_updateREG {s : Obj} (h : Buf c pat s) : (updateREG c s).Safe (Buf c pat) := by
  rw [updateREG_eq h.fixed]
  exact h.set' (by rw [length_regOfDynW]; exact (h.fixed .REG id).symm)

theorem safe_updateDYN {s : Obj} (h : Buf c pat s) : (updateDYN c s).Safe (Buf c pat) := by
  rw [updateDYN_eq h.fixed]
  exact h.set' (by rw [length_dynOfRegW]; exact (h.fixed .DYN id).symm)

theorem safe_loadBody (hp : ∀ f, (pat f).length = c.size f) {upd : Bool} {y : Yaml} (hy : Spec.FileFor c pat y) {s : Obj} (h : Buf c pat s) :
    (loadBody c upd y s).Safe (Buf c pat) := by
  unfold loadBody
  refine (safe_loadKin hp hy h).bind (fun _ h => h) fun s h => ?_
  refine (safe_loadFrame (sf := .W2L) hp rfl hy.base trivial h).bind (fun _ h => h) fun s h => ?_
  refine (safe_loadFrame (sf := .EE) hp rfl hy.ee trivial h).bind (fun _ h => h) fun s h => ?_
  refine Out.Safe.bind (P := Buf c pat) ?_ (fun _ h => h) fun s h => (safe_loadGrav hp hy h).bind (fun _ h => h) fun s h => ?_
  · unfold loadDyn
    refine safe_yaml h fun dyn hdyn => ?_
    by_cases hd : dyn.isDef = true
    · rw [if_pos hd]
      refine (safe_dynLoop _ _ _ (Nat.zero_le _) (hy.dyn dyn hdyn hd) h).bind (fun _ h => h) fun s h => ?_
      split
      · exact safe_updateREG h
      · exact h
    · rw [if_neg hd]; exact h
  · unfold loadEla
    refine safe_yaml h fun el hel => ?_
    by_cases hd : el.isDef = true
    · rw [if_pos hd]
      exact safe_yaml h fun js hjs => safe_elaLoop _ _ _ (Nat.zero_le _) (hy.ela el js hel hd hjs) h
    · rw [if_neg hd]; exact h

theorem safe_regLoop : ∀ (l : List (Option String × Yaml)) (i : ℕ) (s : Obj), i ≤ c.n → Buf c pat s → (regLoop c l i s).Safe (Buf c pat)
  | [], _, _, _, h => h
  | (key, nd) :: rest, i, s, hi, h => by
    unfold regLoop
    by_cases hn : i = c.n
    · rw [if_pos hn]; exact h
    · rw [if_neg hn]
      refine safe_yaml h fun inertial _ => safe_yaml h fun _ _ => safe_yaml h fun p hp' => ?_
      have hd : (s.vec .REG).length = 10 * c.n := h.fixed .REG id
      have hlen := length_readInertial hp'
      refine safe_must (setSeg_some (by omega)) ?_
      exact safe_regLoop rest (i + 1) _ (by omega) (h.set' (length_splice (by omega)))

/-- Calls covered by `C33_partial`: every `load_conf` is given a file for this robot (or none), and `set_par_DHtable` a column vector. -/
def Call.For (c : Cfg) (pat : Field → List ℤ) : Call → Prop
  | .setDH cols _ => cols = 1
  | .loadConf f _ => ∀ y, f = some y → Spec.FileFor c pat y
  | _ => True

theorem buf_run (hp : ∀ f, (pat f).length = c.size f) {k : Call} (hk : k.For c pat) {s : Obj} (h : Buf c pat s) :
    ∃ s', k.run c s = some s' ∧ Buf c pat s' := by
  cases k with
  | setVar f v =>
    refine Out.Safe.caught ?_
    unfold setVar
    split
    · next hv => exact h.full hp (hv.trans (expected_eq c f))
    · exact h
  | setPar f v =>
    refine Out.Safe.caught ?_
    unfold setPar
    split
    · next hv => exact h.set' hv
    · exact h
  | setArguments a b d g =>
    refine Out.Safe.caught ?_
    unfold setArguments
    split
    · next hv => exact (((h.full hp hv.1).full hp hv.2.1).full hp hv.2.2.1).full hp hv.2.2.2
    · exact h
  | setDH k v =>
    refine Out.Safe.caught ?_
    unfold setDH
    split
    · next hv =>
      rw [if_pos (show k = 1 from hk)]
      exact h.set' hv
    · exact h
  | setDYN v u =>
    refine Out.Safe.caught ?_
    unfold setDYN
    have h1 : Buf c pat (if v.length = (s.vec .DYN).length then s.set .DYN v else s) := by
      split
      · next hv => exact h.set' hv
      · exact h
    cases u
    · exact h1
    · exact safe_updateREG h1
  | setREG v u =>
    refine Out.Safe.caught ?_
    unfold setREG
    have h1 : Buf c pat (if v.length = (s.vec .REG).length then s.set .REG v else s) := by
      split
      · next hv => exact h.set' hv
      · exact h
    cases u
    · exact h1
    · exact safe_updateDYN h1
  | loadREG f u =>
    refine Out.Safe.caught ?_
    refine safe_yaml h fun config _ => safe_yaml h fun dyn _ => ?_
    split
    · refine (safe_regLoop _ _ _ (Nat.zero_le _) h).bind (fun _ h => h) fun s h => ?_
      split
      · exact safe_updateDYN h
      · exact h
    · exact h
  | loadConf f u =>
    refine Out.Safe.caught ?_
    exact safe_yaml h fun config hc => safe_loadBody hp (hk config hc) h
  | resizeVariables => exact ⟨_, rfl, buf_init hp⟩

theorem buf_runAll (hp : ∀ f, (pat f).length = c.size f) : ∀ (ks : List Call), (∀ k ∈ ks, k.For c pat) → ∀ {s : Obj}, Buf c pat s →
    ∃ s', runAll c ks s = some s' ∧ Buf c pat s'
  | [], _, s, h => ⟨s, rfl, h⟩
  | k :: ks, hk, s, h => by
    obtain ⟨s1, e1, h1⟩ := buf_run hp (hk k List.mem_cons_self) h
    obtain ⟨s', e', h'⟩ := buf_runAll hp ks (fun k hk' => hk k (List.mem_cons_of_mem _ hk')) h1
    exact ⟨s', by rw [runAll, e1, Option.bind_some, e'], h'⟩

end Thunder.Wrap

import Verif.Lemmas.GenFrame
import Verif.Props.System

/-!
# C62: the files left by `thunder gen`
-/

namespace Thunder

open Spec Robot Text Gen

section

variable [Fl] {env : Env} {us : List UserFun} {a : Args} {d : Disk} {name : List Char} {y : Yaml} {c : Conf} {r : Robot}

omit [Fl] in
theorem parseName_of (h : Asks a name) : ∃ p s, parseName a.configFile = .ok p s ∧ name = a.name.getD s := by
  obtain ⟨stem, ⟨h1, h2⟩, h3⟩ := h.file
  have hl := h.short
  rcases h2 with h2 | ⟨dir, h2⟩
  · rw [h2] at hl ⊢
    exact ⟨_, stem, C47_plain stem h1 hl, h3⟩
  · rw [h2] at hl ⊢
    exact ⟨_, stem, C47_dir dir stem h1 hl, h3⟩

omit [Fl] in
theorem lists_of {r : Robot} (hs : r.funs.Sorted) (hn : ch r.name = name) : ListsFuns r name (cFunctions r) := by
  have hc : ∀ f, ch r.name ++ ch "_" ++ ch f ++ ch "_fun" = cFun name f := fun f => by rw [hn]; rfl
  have hnd : (r.funs.map Prod.fst).Nodup := hs.nodup
  refine ⟨?_, fun f F hf => ?_, fun p hp => ?_⟩
  · unfold cFunctions
    have : (r.funs.map Prod.fst).map (fun f => ch r.name ++ ch "_" ++ ch f ++ ch "_fun") = (cFunctions r).map Prod.fst := by
      simp [cFunctions, List.map_map, Function.comp_def]
    refine List.Nodup.of_map Prod.fst ?_
    rw [show (r.funs.map fun p => (ch r.name ++ ch "_" ++ ch p.1 ++ ch "_fun", p.2)) = cFunctions r from rfl, ← this]
    refine hnd.map fun f g e => ?_
    have e := List.append_cancel_right e
    have e := List.append_cancel_left e
    exact String.toList_inj.1 e
  · exact List.mem_map.2 ⟨(f, F), SMap.mem_of_find hf, by rw [hc]⟩
  · obtain ⟨q, hq, rfl⟩ := List.mem_map.1 hp
    exact ⟨q.1, hc q.1, hs.find_of_mem hq⟩

omit [Fl] in
theorem file_stream_ne {p q t : List Char} (h : q ≠ p) (d : Disk) : (d.stream env p t).file q = d.file q := by
  unfold Disk.stream
  split
  · exact file_set_ne h
  · rfl
omit [Fl] in
theorem dir_stream (p t : List Char) (d : Disk) : (d.stream env p t).dir = d.dir := by
  unfold Disk.stream
  split <;> rfl
omit [Fl] in
theorem file_stream_pos {p t : List Char} {d : Disk} (h : d.writable env p = true) : (d.stream env p t).file p = some t := by
  unfold Disk.stream
  rw [if_pos h, file_set_same]
omit [Fl] in
theorem file_stream_neg {p t : List Char} {d : Disk} (h : d.writable env p ≠ true) : (d.stream env p t).file p = d.file p := by
  unfold Disk.stream
  rw [if_neg h]

/-- The disk before the documents are written. -/
noncomputable def before (env : Env) (a : Args) (name : List Char) (r : Robot) (out t hd sr : List Char) (d : Disk) : Disk :=
  ((((d.withDir out).writes (libFiles env r out name a.casadi)).writes [(out ++ fH name, headerFile), (out ++ fC name, sourceFile)]).writes
    (pyFiles out name t a.python)).writes [(out ++ fH name, hd), (out ++ fC name, sr)]

/-- The disk before the copies. -/
noncomputable def produced (env : Env) (a : Args) (y z : Yaml) (name : List Char) (r : Robot) (out t hd sr : List Char) (d : Disk) : Disk :=
  ((before env a name r out t hd sr d).stream env (out ++ fConf name) (env.emit [] y)).stream env (out ++ fReg name) (env.emit regComment z)

omit [Fl] in
theorem dir_before {out t hd sr : List Char} : (before env a name r out t hd sr d).dir = (d.withDir out).dir := by
  unfold before
  rw [dir_writes, dir_writes, dir_writes, dir_writes]
omit [Fl] in
theorem dir_produced {z : Yaml} {out t hd sr : List Char} : (produced env a y z name r out t hd sr d).dir = (d.withDir out).dir := by
  unfold produced
  rw [dir_stream, dir_stream, dir_before]

omit [Fl] in
/-- A file that none of the first steps writes. -/
theorem before_not {out t hd sr q : List Char} (w1 : q ≠ out ++ fGenH name) (w2 : q ≠ out ++ fGenC name) (w3 : q ≠ out ++ fH name)
    (w4 : q ≠ out ++ fC name) (w5 : a.python = true → q ≠ out ++ fCM) (w6 : a.casadi = true → ∀ f, r.funs.has f = true → q ≠ out ++ fCas f) :
    (before env a name r out t hd sr d).file q = d.file q := by
  have two : ∀ {g g' u u' : List Char}, q ≠ out ++ g → q ≠ out ++ g' → q ∉ [(out ++ g, u), (out ++ g', u')].map Prod.fst := by
    intro g g' u u' h1 h2 hm
    simp only [List.map_cons, List.map_nil, List.mem_cons, List.not_mem_nil, or_false] at hm
    exact hm.elim h1 h2
  unfold before
  rw [writes_not (two w3 w4), writes_not, writes_not (two w3 w4), writes_not]
  · rfl
  · unfold libFiles
    rw [List.map_append]
    intro hm
    rcases List.mem_append.1 hm with hm | hm
    · exact two w2 w1 hm
    · split_ifs at hm with hc
      · obtain ⟨p, hp, e⟩ := List.mem_map.1 hm
        obtain ⟨p', hp', rfl⟩ := List.mem_map.1 hp
        exact w6 hc p'.1 (SMap.has_iff.2 (List.mem_map.2 ⟨p', hp', rfl⟩)) e.symm
      · cases hm
  · unfold pyFiles
    intro hm
    split_ifs at hm with hp
    · exact two (w5 hp) (w5 hp) hm
    · cases hm

omit [Fl] in
/-- A file that none of the steps writes. -/
theorem produced_not {z : Yaml} {out t hd sr q : List Char} (h : ∀ f, Written a name r f → q ≠ out ++ f) :
    (produced env a y z name r out t hd sr d).file q = d.file q := by
  have w5 : q ≠ out ++ fConf name := h _ (.inr (.inr (.inr (.inr (.inl rfl)))))
  have w6 : q ≠ out ++ fReg name := h _ (.inr (.inr (.inr (.inr (.inr (.inl rfl))))))
  unfold produced
  rw [file_stream_ne w6, file_stream_ne w5]
  refine before_not (h _ (.inl rfl)) (h _ (.inr (.inl rfl))) (h _ (.inr (.inr (.inl (List.append_assoc _ _ _).symm))))
    (h _ (.inr (.inr (.inr (.inl (List.append_assoc _ _ _).symm))))) (fun hp => h _ (.inr (.inr (.inr (.inr (.inr (.inr (.inl ⟨hp, rfl⟩))))))))
    fun hc f hf => h _ (.inr (.inr (.inr (.inr (.inr (.inr (.inr ⟨hc, f, hf, rfl⟩)))))))

section

variable {z : Yaml} {out t hd sr : List Char}

omit [Fl] in
theorem produced_other {f : List Char} (h1 : f ≠ fConf name) (h2 : f ≠ fReg name) :
    (produced env a y z name r out t hd sr d).file (out ++ f) = (before env a name r out t hd sr d).file (out ++ f) := by
  unfold produced
  rw [file_stream_ne fun e => h2 (List.append_cancel_left e), file_stream_ne fun e => h1 (List.append_cancel_left e)]

omit [Fl] in
theorem produced_genH : (produced env a y z name r out t hd sr d).file (out ++ fGenH name) = some (env.cHeader (cFunctions r)) := by
  rw [produced_other genH_ne_conf genH_ne_reg]
  unfold before
  rw [writes_not (not_two genH_ne_h genH_ne_c), writes_not (not_py fun _ => genH_ne_cm),
    writes_not (not_two genH_ne_h genH_ne_c), lib_genH]
omit [Fl] in
theorem produced_genC : (produced env a y z name r out t hd sr d).file (out ++ fGenC name) = some (env.cSource (cFunctions r)) := by
  rw [produced_other genC_ne_conf genC_ne_reg]
  unfold before
  rw [writes_not (not_two genC_ne_h genC_ne_c), writes_not (not_py fun _ => genC_ne_cm),
    writes_not (not_two genC_ne_h genC_ne_c), lib_genC]
omit [Fl] in
theorem produced_h : (produced env a y z name r out t hd sr d).file (out ++ fH name) = some hd := by
  rw [produced_other h_ne_conf h_ne_reg]
  unfold before
  rw [two_fst h_ne_c]
omit [Fl] in
theorem produced_c : (produced env a y z name r out t hd sr d).file (out ++ fC name) = some sr := by
  rw [produced_other c_ne_conf c_ne_reg]
  unfold before
  rw [two_snd]
omit [Fl] in
theorem produced_cas (hc : a.casadi = true) (hs : r.funs.Sorted) {f : String} {F : CFun} (hf : r.funs.find f = some F) :
    (produced env a y z name r out t hd sr d).file (out ++ fCas f) = some (env.stored (ch r.name ++ ch "_" ++ ch f ++ ch "_fun") F) := by
  rw [produced_other (cas_ne_conf f) (cas_ne_reg f)]
  unfold before
  rw [writes_not (not_two (cas_ne_h f) (cas_ne_c f)), writes_not (not_py fun _ => cas_ne_cm f),
    writes_not (not_two (cas_ne_h f) (cas_ne_c f)), hc, lib_cas hs _ hf]
omit [Fl] in
theorem produced_cm (hp : a.python = true) : (produced env a y z name r out t hd sr d).file (out ++ fCM) = some (repl (ch "robot") name t) := by
  rw [produced_other cm_ne_conf cm_ne_reg]
  unfold before
  rw [writes_not (not_two (Ne.symm h_ne_cm) (Ne.symm c_ne_cm)), hp, py_cm]

omit [Fl] in
theorem before_conf : (before env a name r out t hd sr d).file (out ++ fConf name) = d.file (out ++ fConf name) :=
  before_not (ne_of_sig (by rw [sig_conf, sig_genH]; simp)) (ne_of_sig (by rw [sig_conf, sig_genC]; simp)) (ne_of_sig (by rw [sig_conf, sig_h]; simp))
    (ne_of_sig (by rw [sig_conf, sig_c]; simp)) (fun _ => ne_of_sig (by rw [sig_conf, sig_cm]; simp)) fun _ f _ => ne_of_sig (by rw [sig_conf, sig_cas]; simp)
omit [Fl] in
theorem before_reg : (before env a name r out t hd sr d).file (out ++ fReg name) = d.file (out ++ fReg name) :=
  before_not (ne_of_sig (by rw [sig_reg, sig_genH]; simp)) (ne_of_sig (by rw [sig_reg, sig_genC]; simp)) (ne_of_sig (by rw [sig_reg, sig_h]; simp))
    (ne_of_sig (by rw [sig_reg, sig_c]; simp)) (fun _ => ne_of_sig (by rw [sig_reg, sig_cm]; simp)) fun _ f _ => ne_of_sig (by rw [sig_reg, sig_cas]; simp)

end

omit [Fl] in
theorem writable_out {d' : Disk} {f : List Char} (hd : d'.dir = (d.withDir (outDir env.cwd name)).dir) (hf : '/' ∉ f) :
    d'.writable env (outDir env.cwd name ++ f) = true ↔ CanWrite env d name f := by
  have h1 : Function.update d.dir (outDir env.cwd name) true (outDir env.cwd name ++ f ++ ['/']) = d.dir (outDir env.cwd name ++ f ++ ['/']) := by
    rw [Function.update_of_ne]
    intro e
    have := congrArg List.length e
    simp at this
  unfold Disk.writable CanWrite
  rw [hd, dirOf_append (last_out _ _) hf]
  show (env.allowed (outDir env.cwd name ++ f) && Function.update d.dir (outDir env.cwd name) true (outDir env.cwd name) &&
    !Function.update d.dir (outDir env.cwd name) true (outDir env.cwd name ++ f ++ ['/'])) = true ↔ _
  rw [Function.update_self, h1]
  simp

section

variable {z : Yaml} {t hd sr : List Char}

omit [Fl] in
theorem produced_conf (hb : Gen.Base name) : (CanWrite env d name (fConf name) →
      (produced env a y z name r (outDir env.cwd name) t hd sr d).file (outDir env.cwd name ++ fConf name) = some (env.emit [] y)) ∧
    (¬ CanWrite env d name (fConf name) → (produced env a y z name r (outDir env.cwd name) t hd sr d).file (outDir env.cwd name ++ fConf name) =
      d.file (outDir env.cwd name ++ fConf name)) := by
  have hw := writable_out (env := env) (name := name) (d := d) (f := fConf name) (d' := before env a name r (outDir env.cwd name) t hd sr d) dir_before hb.conf
  unfold produced
  rw [file_stream_ne fun e => conf_ne_reg (List.append_cancel_left e)]
  exact ⟨fun h => file_stream_pos (hw.2 h), fun h => (file_stream_neg fun h' => h (hw.1 h')).trans before_conf⟩
omit [Fl] in
theorem produced_reg (hb : Gen.Base name) : (CanWrite env d name (fReg name) →
      (produced env a y z name r (outDir env.cwd name) t hd sr d).file (outDir env.cwd name ++ fReg name) = some (env.emit regComment z)) ∧
    (¬ CanWrite env d name (fReg name) → (produced env a y z name r (outDir env.cwd name) t hd sr d).file (outDir env.cwd name ++ fReg name) =
      d.file (outDir env.cwd name ++ fReg name)) := by
  have hw := writable_out (env := env) (name := name) (d := d) (f := fReg name)
    (d' := (before env a name r (outDir env.cwd name) t hd sr d).stream env (outDir env.cwd name ++ fConf name) (env.emit [] y))
    ((dir_stream _ _ _).trans dir_before) hb.reg
  unfold produced
  exact ⟨fun h => file_stream_pos (hw.2 h), fun h => (file_stream_neg fun h' => h (hw.1 h')).trans
    ((file_stream_ne (fun e => conf_ne_reg (List.append_cancel_left e).symm) _).trans before_reg)⟩

end

omit [Fl] in
/-- A file of the templates is not among those written into the directory of the generated files. -/
theorem template_lib {out f : List Char} (ho : out ≠ templatePath) (hl : out.getLast? = some '/') (hf : '/' ∉ f) (hb : Gen.Base name)
    (hs : ∀ p ∈ r.funs, '/' ∉ ch p.1) (save : Bool) (d : Disk) :
    (d.writes (libFiles env r out name save)).file (templatePath ++ f) = d.file (templatePath ++ f) := by
  refine writes_not ?_ d
  unfold libFiles
  rw [List.map_append]
  intro hm
  rcases List.mem_append.1 hm with hm | hm
  · simp only [List.map_cons, List.map_nil, List.mem_cons, List.not_mem_nil, or_false] at hm
    exact hm.elim (template_ne ho hl hf hb.genC) (template_ne ho hl hf hb.genH)
  · split_ifs at hm with hc
    · obtain ⟨p, hp, e⟩ := List.mem_map.1 hm
      obtain ⟨p', hp', rfl⟩ := List.mem_map.1 hp
      exact template_ne ho hl hf (not_mem_append (hs p' hp') (by decide)) e.symm
    · cases hm

omit [Fl] in
theorem template_two {out f g g' u u' : List Char} (ho : out ≠ templatePath) (hl : out.getLast? = some '/') (hf : '/' ∉ f) (hg : '/' ∉ g)
    (hg' : '/' ∉ g') (d : Disk) : (d.writes [(out ++ g, u), (out ++ g', u')]).file (templatePath ++ f) = d.file (templatePath ++ f) := by
  refine writes_not ?_ d
  intro hm
  simp only [List.map_cons, List.map_nil, List.mem_cons, List.not_mem_nil, or_false] at hm
  exact hm.elim (template_ne ho hl hf hg) (template_ne ho hl hf hg')

omit [Fl] in
/-- The steps after the directory has been made. -/
theorem run_rest {z : Yaml} {r' : Robot} {out t hd sr : List Char} {d d₂ : Disk} (ho : Open env name out d.dir) (hne : out ≠ templatePath) (hh : env.home = true)
    (hb : Gen.Base name) (hs : ∀ p ∈ r.funs, '/' ∉ ch p.1) (ht0 : d.dir templatePath = true)
    (ht1 : d.file (templatePath ++ ch "thunder_robot.h") = some headerFile) (ht2 : d.file (templatePath ++ ch "thunder_robot.cpp") = some sourceFile)
    (htm : a.python = true → d.file (templatePath ++ ch "CMakeLists.txt") = some t)
    (hi : ∀ o, Instantiate name r a.python o ↔ o = .ret 1 (some hd) (some sr)) (hz : saveParREG r = .ok z r')
    (hc : copies env name out a.copy ((((((d.writes (libFiles env r out name a.casadi)).writes [(out ++ fH name, headerFile), (out ++ fC name, sourceFile)]).writes
      (pyFiles out name t a.python)).writes [(out ++ fH name, hd), (out ++ fC name, sr)]).stream env (out ++ fConf name) (env.emit [] y)).stream env
      (out ++ fReg name) (env.emit regComment z)) = .ok () d₂) :
    Det (do
      Prog.act (generateLibrary env r out (name ++ ch "_gen") a.casadi)
      Prog.act (Act.ofExc (if env.home then some () else none))
      Prog.act (copyTemplates env out name)
      let changed ← pythonFiles env out name a.python
      if changed = 0 then pure 0 else do
        let changed ← changeFiles env name r (out ++ ch "thunder_" ++ name ++ ch ".h") (out ++ ch "thunder_" ++ name ++ ch ".cpp") a.python
        if changed = 0 then pure 0 else do
          Prog.act (saveFiles env r y (out ++ name ++ ch "_conf.yaml") (out ++ name ++ ch "_par_REG.yaml"))
          Prog.act (copies env name out a.copy)
          pure (1 : ℤ)) d (.ok 1 d₂) := by
  have e1 : (d.writes (libFiles env r out name a.casadi)).file (templatePath ++ ch "thunder_robot.h") = some headerFile :=
    (template_lib hne ho.1 (by decide) hb hs _ d).trans ht1
  have e2 : (d.writes (libFiles env r out name a.casadi)).file (templatePath ++ ch "thunder_robot.cpp") = some sourceFile :=
    (template_lib hne ho.1 (by decide) hb hs _ d).trans ht2
  have e3 : a.python = true → ((d.writes (libFiles env r out name a.casadi)).writes
      [(out ++ fH name, headerFile), (out ++ fC name, sourceFile)]).file (templatePath ++ ch "CMakeLists.txt") = some t := fun hp =>
    (template_two hne ho.1 (by decide) hb.h hb.c _).trans ((template_lib hne ho.1 (by decide) hb hs _ d).trans (htm hp))
  generalize hd1 : d.writes (libFiles env r out name a.casadi) = d1 at *
  have hdir1 : d1.dir = d.dir := by rw [← hd1, dir_writes]
  refine det_bind (det_act' (d := d) ((generateLibrary_ok ho hb hs _).trans (by rw [hd1]))) ?_
  refine det_bind (a := ()) (d' := d1) (det_act' (by rw [hh]; rfl)) ?_
  have ho1 : Open env name out d1.dir := hdir1 ▸ ho
  refine det_bind (det_act' (copyTemplates_ok ho1 hb hne (hdir1 ▸ ht0) e1 e2)) ?_
  have f1 : (d1.writes [(out ++ fH name, headerFile), (out ++ fC name, sourceFile)]).file (out ++ fH name) = some headerFile := two_fst h_ne_c d1
  have f2 : (d1.writes [(out ++ fH name, headerFile), (out ++ fC name, sourceFile)]).file (out ++ fC name) = some sourceFile := two_snd d1
  generalize hd2 : d1.writes [(out ++ fH name, headerFile), (out ++ fC name, sourceFile)] = d2 at *
  have hdir2 : d2.dir = d.dir := by rw [← hd2, dir_writes, hdir1]
  have ho2 : Open env name out d2.dir := hdir2 ▸ ho
  refine det_bind (python_ok ho2 hne (hdir2 ▸ ht0) _ e3) ?_
  rw [if_neg (by decide)]
  have g1 : (d2.writes (pyFiles out name t a.python)).file (out ++ fH name) = some headerFile := (writes_not (not_py fun _ => h_ne_cm) _).trans f1
  have g2 : (d2.writes (pyFiles out name t a.python)).file (out ++ fC name) = some sourceFile := (writes_not (not_py fun _ => c_ne_cm) _).trans f2
  generalize hd3 : d2.writes (pyFiles out name t a.python) = d3 at *
  have ho3 : Open env name out d3.dir := by rw [← hd3, dir_writes]; exact ho2
  refine det_bind (change_ok ho3 hb hi g1 g2) ?_
  rw [if_neg (by decide)]
  generalize hd4 : d3.writes [(out ++ fH name, hd), (out ++ fC name, sr)] = d4 at *
  refine det_bind (det_act' (save_ok hz)) ?_
  exact det_bind (det_act' hc) (det_pure _)

/-- The run of the program. -/
theorem run_main {z : Yaml} {r' : Robot} {t hd sr : List Char} (ha : Asks a name) (hf : (d.file a.configFile).bind env.parse = some y)
    (e : robotFromFileWith us (String.ofList name) (some y) true = .ok r) (hh : env.home = true) (ht : Installed d a.python) (hw : Writable env d name)
    (hb : Gen.Base name) (hs : ∀ p ∈ r.funs, '/' ∉ ch p.1) (htm : a.python = true → d.file (templatePath ++ ch "CMakeLists.txt") = some t)
    (hi : ∀ o, Instantiate name r a.python o ↔ o = .ret 1 (some hd) (some sr)) (hz : saveParREG r = .ok z r') {d₂ : Disk}
    (hc : copies env name (outDir env.cwd name) a.copy (produced env a y z name r (outDir env.cwd name) t hd sr d) = .ok () d₂) (o : Res Disk ℤ) :
    Gen.main env us a d o ↔ o = .ok 1 d₂ := by
  obtain ⟨pp, ps, hp1, hp2⟩ := parseName_of ha
  have hj : join env.cwd (name ++ ch "_generatedFiles/") = outDir env.cwd name := by
    rw [join_eq, outDir, List.append_assoc]
    intro hx
    cases name with
    | nil => exact absurd hx (by decide)
    | cons x l =>
      have : x = '/' := by simpa using hx
      exact hb.slash (this ▸ List.mem_cons_self)
  have hne := out_ne env.cwd name
  have ho := open_out hw
  have hcr := create_ok hw hb
  unfold Gen.main
  rw [ha.ok, ha.config, hp1, if_neg (by decide), if_neg (by decide)]
  dsimp only
  rw [← hp2]
  unfold generate
  refine det_bind (det_act' (show Act.read d = .ok d d from rfl)) ?_ o
  rw [hf]
  refine det_bind (a := r) (d' := d) (det_act' (by rw [e])) ?_
  rw [hj]
  unfold produced before at hc
  generalize outDir env.cwd name = out at *
  refine det_bind (a := true) (d' := d.withDir out) (det_act' (by rw [hcr])) ?_
  rw [if_neg (by decide)]
  refine run_rest ho hne hh hb hs ?_ ht.header ht.source htm hi hz hc
  show Function.update d.dir out true templatePath = true
  rw [Function.update_of_ne hne.symm]
  exact ht.dir

omit [Fl] in
theorem withDir_dir {out q : List Char} (h : d.dir q = true) : (d.withDir out).dir q = true := by
  show Function.update d.dir out true q = true
  by_cases e : q = out
  · rw [e, Function.update_self]
  · rw [Function.update_of_ne e, h]
omit [Fl] in
theorem withDir_not {out q : List Char} (h : d.dir q = false) (e : q ≠ out) : (d.withDir out).dir q = false := by
  show Function.update d.dir out true q = false
  rw [Function.update_of_ne e, h]

omit [Fl] in
theorem dest_dir_ne {f sub : List Char} (h : CopyDest name f sub) (pre cwd n : List Char) : pre ++ f ++ ['/'] ≠ outDir cwd n := by
  intro e
  have h1 : (outDir cwd n).dropLast.getLast? = some 's' := by
    unfold outDir
    rw [show "_generatedFiles/".toList = ch "_generatedFiles" ++ ['/'] by decide, ← List.append_assoc, List.dropLast_concat,
      List.getLast?_append_of_ne_nil _ (by decide)]
    decide
  rw [← e, List.dropLast_concat] at h1
  have key : ∀ {u v : List Char}, v ≠ [] → v.getLast? ≠ some 's' → (pre ++ (u ++ v)).getLast? ≠ some 's' := by
    intro u v hv h
    rwa [List.getLast?_append_of_ne_nil _ (by simp [hv]), List.getLast?_append_of_ne_nil _ hv]
  rcases h with (rfl | rfl) | (rfl | rfl) | (rfl | rfl) <;> exact key (by decide) (by decide) h1

/-- C62: for every well-formed file, every choice of functions added by the user and every name for which `robot_from_file` succeeds, with the templates
installed and a directory that can be written, `thunder gen` has a single outcome: it returns 1, the directory of the generated files contains what
`Produced` says, and nothing else on the disk changes, except for the copies asked for with `--copy`.  The two documents are an exception: when one of
them cannot be written it is left as it was, and the command still returns 1. -/
theorem C62 (ha : Asks a name) (hf : (d.file a.configFile).bind env.parse = some y) (h : Describes y c) (hj : JointsOk c) (hu : UserFuns c us)
    (hR : ∀ u ∈ us, "par_REG" ∉ u.sure ++ u.possible) (e : robotFromFileWith us (String.ofList name) (some y) true = .ok r) (hh : env.home = true)
    (ht : Installed d a.python) (hw : Writable env d name) :
    ∃ d', (∀ o, Gen.main env us a d o ↔ o = .ok 1 d') ∧ Produced env a y c us name r (outDir env.cwd name) d d' ∧
      (∀ q, (∀ f, Written a name r f → q ≠ outDir env.cwd name ++ f) → (a.copy = true → ∀ f, ¬ CopiedTo env.cwd name f q) → d'.file q = d.file q) ∧
      (∀ f q, CopiedTo env.cwd name f q → d'.file q = d.file q ∨ a.copy = true ∧ d'.file q = d'.file (outDir env.cwd name ++ f)) ∧
      (∀ f, Document name f → ¬ CanWrite env d name f → d'.file (outDir env.cwd name ++ f) = d.file (outDir env.cwd name ++ f)) ∧
      (a.copy = true → (∀ f, Document name f → CanWrite env d name f) → (∀ f q, CopiedTo env.cwd name f q → env.allowed q = true ∧ (d.dir (dirOf q) = true) ∧ d.dir (q ++ ['/']) = false) →
        ∀ f q, CopiedTo env.cwd name f q → d'.file q = d'.file (outDir env.cwd name ++ f)) ∧
      ∀ p, d'.dir p = true ↔ d.dir p = true ∨ p = outDir env.cwd name := by
  have hnm := robotName_of_with h e
  have hch : ch (String.ofList name) = name := String.toList_ofList
  have hb : Gen.Base name := hch ▸ base_of hnm
  obtain ⟨bk, hrn, hfs, -⟩ := fromFileWith_ok (T := Plain) h hj.1 (typed_of hj) (userOk_of hu) Fn.plain_key (fun g hg => by
    obtain ⟨F, _, rfl⟩ := hg
    exact ⟨F.plain_name, F.plain_descr c.n⟩) e
  have hname : ch r.name = name := by rw [bk.name]; exact hch
  obtain ⟨hd, sr, hinst, fs, k1, k2, k3, k4⟩ := C46 h hj hu e a.python
  rw [show (String.ofList name).toList = name from hch] at k3 k4
  have hinst' : ∀ o, Instantiate name r a.python o ↔ o = .ret 1 (some hd) (some sr) := by
    have := hinst; rwa [hch] at this
  obtain ⟨z, r', hz, hdoc⟩ := saveReg_ok h hj.1 (typed_of hj) hR e hrn
  obtain ⟨-, hval⟩ := reg_values h hj.1 (typed_of hj) hR e
  have hslash : ∀ p ∈ r.funs, '/' ∉ ch p.1 := by
    intro p hp hx
    have hck := bk.valid p.1 (SMap.has_iff.2 (List.mem_map.2 ⟨p, hp, rfl⟩))
    rcases chars_of_check hck _ hx with h | h <;> revert h <;> decide
  obtain ⟨t, htm⟩ : ∃ t, a.python = true → d.file (templatePath ++ ch "CMakeLists.txt") = some t := by
    by_cases hpy : a.python = true
    · obtain ⟨t, h⟩ := ht.cmake hpy
      exact ⟨t, fun _ => h⟩
    · exact ⟨[], fun h => absurd h hpy⟩
  obtain ⟨d₂, hc1, hc2, hc3, hc4⟩ := copies_ok (env := env) hb a.copy (produced env a y z name r (outDir env.cwd name) t hd sr d)
  have keep : ∀ f, '/' ∉ f → d₂.file (outDir env.cwd name ++ f) = (produced env a y z name r (outDir env.cwd name) t hd sr d).file (outDir env.cwd name ++ f) := by
    intro f hf
    rcases hc2.2 (outDir env.cwd name ++ f) with h | ⟨p, ⟨g, -, root, -, sub, hs, e⟩, -⟩
    · exact h
    · exfalso
      have h1 : dirOf (root ++ sub ++ g) = root ++ sub := dirOf_append (Dest.last hs root) (Dest.base hs hb)
      rw [← e, dirOf_append (last_out _ _) hf] at h1
      exact Dest.ne_out hs root env.cwd name h1.symm
  have hdoc' : RegDoc z c.n fun i k => some (linearOf c i k) := by
    obtain ⟨l, h1, h2, h3⟩ := hdoc
    refine ⟨l, h1, h2, fun i hi => ?_⟩
    obtain ⟨nd, inert, g1, g2, g3⟩ := h3 i hi
    refine ⟨nd, inert, g1, g2, ?_⟩
    have hv := hval i hi
    unfold Inertial at g3 ⊢
    dsimp only at g3 ⊢
    rw [hv 0 (by decide), hv 1 (by decide), hv 2 (by decide), hv 3 (by decide), hv 4 (by decide), hv 5 (by decide), hv 6 (by decide),
      hv 7 (by decide), hv 8 (by decide), hv 9 (by decide)] at g3
    exact g3
  have noslash : ∀ f q, CopiedTo env.cwd name f q → '/' ∉ f := by
    rintro f q ⟨root, -, sub, hs, -⟩
    exact Dest.base hs hb
  have outside : ∀ f q, CopiedTo env.cwd name f q → ∀ g, '/' ∉ g → q ≠ outDir env.cwd name ++ g := by
    rintro f q ⟨root, -, sub, hs, rfl⟩ g hg e
    have h1 : dirOf (root ++ sub ++ f) = root ++ sub := dirOf_append (Dest.last hs root) (Dest.base hs hb)
    rw [e, dirOf_append (last_out _ _) hg] at h1
    exact Dest.ne_out hs root env.cwd name h1.symm
  have unwritten : ∀ f q, CopiedTo env.cwd name f q → (produced env a y z name r (outDir env.cwd name) t hd sr d).file q = d.file q := by
    intro f q hfq
    refine produced_not fun g hg => outside f q hfq g ?_
    rcases hg with rfl | rfl | rfl | rfl | rfl | rfl | ⟨-, rfl⟩ | ⟨-, x, hx, rfl⟩
    · exact hb.genH
    · exact hb.genC
    · rw [List.append_assoc]; exact hb.h
    · rw [List.append_assoc]; exact hb.c
    · exact hb.conf
    · exact hb.reg
    · exact slash_cm
    · obtain ⟨p, hp, rfl⟩ := List.mem_map.1 (SMap.has_iff.1 hx)
      exact not_mem_append (hslash p hp) (by decide)
  have dest_ne : ∀ f q, CopiedTo env.cwd name f q → q ++ ['/'] ≠ outDir env.cwd name := by
    rintro f q ⟨root, -, sub, hs, rfl⟩
    exact dest_dir_ne hs _ _ _
  refine ⟨d₂, run_main ha hf e hh ht hw hb hslash htm hinst' hz hc1, ?_, ?_, ?_, ?_, ?_, ?_⟩
  · have pc := produced_conf (env := env) (d := d) (a := a) (y := y) (z := z) (r := r) (t := t) (hd := hd) (sr := sr) hb
    have pr := produced_reg (env := env) (d := d) (a := a) (y := y) (z := z) (r := r) (t := t) (hd := hd) (sr := sr) hb
    generalize outDir env.cwd name = out at *
    refine ⟨⟨_, lists_of bk.sorted hname, ?_, ?_⟩, ⟨hd, sr, ?_, ?_, fs, k1, k2, k3, k4⟩, fun hw => ?_, fun hw => ⟨regComment, z, ?_, hdoc'⟩, ?_, ?_⟩
    · rw [List.append_assoc]; exact (keep _ hb.genH).trans produced_genH
    · rw [List.append_assoc]; exact (keep _ hb.genC).trans produced_genC
    · rw [List.append_assoc, List.append_assoc]; exact (keep _ hb.h).trans produced_h
    · rw [List.append_assoc, List.append_assoc]; exact (keep _ hb.c).trans produced_c
    · rw [List.append_assoc]; exact (keep _ hb.conf).trans (pc.1 hw)
    · rw [List.append_assoc]; exact (keep _ hb.reg).trans (pr.1 hw)
    · intro hcas f F hF
      have hsl := hslash (f, F) (SMap.mem_of_find hF)
      rw [List.append_assoc]
      refine ((keep _ (not_mem_append hsl (by decide))).trans (produced_cas hcas bk.sorted hF)).trans ?_
      rw [hname]; rfl
    · intro hp
      exact ⟨t, _, htm hp, repl_spec (by decide), (keep _ slash_cm).trans (produced_cm hp)⟩
  · intro q hq hcq
    rcases hc2.2 q with h | ⟨p, ⟨g, -, hg⟩, -⟩
    · rw [h, produced_not hq]
    · by_cases hcp : a.copy = true
      · exact absurd hg (hcq hcp g)
      · rw [hc3 (by simpa using hcp), produced_not hq]
  · intro f q hfq
    have hnw := unwritten f q hfq
    rcases hc2.2 q with h | ⟨p, hp, hv⟩
    · exact .inl (h.trans hnw)
    · by_cases hcp : a.copy = true
      · refine .inr ⟨hcp, ?_⟩
        rw [hv, copying_unique hb env.cwd _ _ _ hp ⟨f, rfl, hfq⟩, keep f (noslash f q hfq)]
      · exact .inl (by rw [hc3 (by simpa using hcp), hnw])
  · have pc := produced_conf (env := env) (d := d) (a := a) (y := y) (z := z) (r := r) (t := t) (hd := hd) (sr := sr) hb
    have pr := produced_reg (env := env) (d := d) (a := a) (y := y) (z := z) (r := r) (t := t) (hd := hd) (sr := sr) hb
    rintro f (rfl | rfl) hn
    · exact (keep _ hb.conf).trans (pc.2 hn)
    · exact (keep _ hb.reg).trans (pr.2 hn)
  · intro hcp hdw hall f q hfq
    rw [hc4 hcp (fun f q hfq => ?_) f q hfq, keep f (noslash f q hfq)]
    obtain ⟨h1, h2, h3⟩ := hall f q hfq
    refine ⟨?_, ?_⟩
    · unfold Disk.writable
      rw [dir_produced, h1, withDir_dir h2, withDir_not h3 (dest_ne f q hfq)]
      rfl
    · obtain ⟨root, -, sub, hs, -⟩ := hfq
      rcases hs with (rfl | rfl) | (rfl | rfl) | (rfl | rfl)
      · rw [show outDir env.cwd name ++ (name ++ "_gen.h".toList) = outDir env.cwd name ++ fGenH name from rfl, produced_genH]; rfl
      · rw [show outDir env.cwd name ++ ("thunder_".toList ++ name ++ ".h".toList) = outDir env.cwd name ++ fH name from
          congrArg _ (List.append_assoc _ _ _), produced_h]; rfl
      · rw [show outDir env.cwd name ++ (name ++ "_gen.cpp".toList) = outDir env.cwd name ++ fGenC name from rfl, produced_genC]; rfl
      · rw [show outDir env.cwd name ++ ("thunder_".toList ++ name ++ ".cpp".toList) = outDir env.cwd name ++ fC name from
          congrArg _ (List.append_assoc _ _ _), produced_c]; rfl
      · rw [show outDir env.cwd name ++ (name ++ "_conf.yaml".toList) = outDir env.cwd name ++ fConf name from rfl,
          (produced_conf hb).1 (hdw _ (.inl rfl))]; rfl
      · rw [show outDir env.cwd name ++ (name ++ "_par_REG.yaml".toList) = outDir env.cwd name ++ fReg name from rfl,
          (produced_reg hb).1 (hdw _ (.inr rfl))]; rfl
  · intro p
    rw [hc2.1, dir_produced]
    show Function.update d.dir (outDir env.cwd name) true p = true ↔ _
    by_cases hp : p = outDir env.cwd name
    · subst hp; simp
    · rw [Function.update_of_ne hp]; simp [hp]

/-- C62: whatever the command line, the file, the disk and the outcome (other than undefined behaviour), only files in the directory of the generated
files and, with `--copy`, their copies change; no other directory is made. -/
theorem C62_frame {o : Res Disk ℤ} {d' : Disk} (h : Gen.main env us a d o) (hd : left o = some d') :
    (d'.file = d.file ∧ d'.dir = d.dir) ∨ ∃ pre stem, parseName a.configFile = .ok pre stem ∧
      (∀ q, ¬ join env.cwd (a.name.getD stem ++ "_generatedFiles/".toList) <+: q → (a.copy = true → ∀ f, ¬ CopiedTo env.cwd (a.name.getD stem) f q) →
        d'.file q = d.file q) ∧
      ∀ q, q ≠ join env.cwd (a.name.getD stem ++ "_generatedFiles/".toList) → d'.dir q = d.dir q := by
  unfold Gen.main at h
  split at h
  · obtain rfl : o = .ok 0 d := h
    cases hd; exact .inl ⟨rfl, rfl⟩
  split at h
  · obtain rfl : o = .exc d := h
    cases hd; exact .inl ⟨rfl, rfl⟩
  cases hp : parseName a.configFile with
  | invalid =>
    rw [hp] at h
    obtain rfl : o = .ok 0 d := h
    cases hd; exact .inl ⟨rfl, rfl⟩
  | throws =>
    rw [hp] at h
    obtain rfl : o = .exc d := h
    cases hd; exact .inl ⟨rfl, rfl⟩
  | ok pre stem =>
    rw [hp] at h
    have := within_generate (env := env) us a (a.name.getD stem)
      (P := fun q => Under (join env.cwd (a.name.getD stem ++ ch "_generatedFiles/")) q ∨ a.copy = true ∧ ∃ f, CopiedTo env.cwd (a.name.getD stem) f q)
      (Q := fun q => q = join env.cwd (a.name.getD stem ++ ch "_generatedFiles/"))
      (fun q hq => .inl hq) rfl (fun hc f q hf => .inr ⟨hc, f, hf⟩) d o h d' hd
    refine .inr ⟨pre, stem, rfl, fun q h1 h2 => this.1 q ?_, this.2⟩
    rintro (h | ⟨hc, f, hf⟩)
    · exact h1 h
    · exact h2 hc f hf

omit [Fl] in
/-- C62: a document with the linear parameters of the mechanism, loaded with `load_par_REG` into any object of the generated class, gives these
parameters; when the masses are not zero, `par_DYN` becomes the inertial parameters of the robot file. -/
theorem C62_reg {w : Wrap.Cfg} (hw : w.n = c.n) {z : Yaml} (hz : RegDoc z c.n fun i k => some (linearOf c i k)) (hm : ∀ i < c.n, mass c.dyn i ≠ 0)
    (calls : List Wrap.Call) {o : Wrap.Obj} (ho : Wrap.runAll w calls (Wrap.init w) = some o) :
    ∃ o', (Wrap.Call.loadREG (some z) true).run w o = some o' ∧
      (∀ i < c.n, ∀ k < 10, (o'.vec .REG)[10 * i + k]? = some (some (linearOf c i k))) ∧ o'.vec .DYN = nums (10 * c.n) c.dyn ∧
      (∀ f, f ≠ .REG → f ≠ .DYN → o'.vec f = o.vec f) ∧ o'.symb = o.symb := by
  have h2 := Wrap.sized_runAll calls (Wrap.sized_init w) ho
  have hl2 : (o.vec .REG).length = 10 * w.n := h2 .REG id
  obtain ⟨l, hch, hlen, hent⟩ := hz
  obtain ⟨V, hV⟩ : ∃ V, V = vecN (10 * c.n) fun j => linearOf c (j / 10) (j % 10) := ⟨_, rfl⟩
  have hVl : V.length = 10 * w.n := by rw [hV, hw]; simp [vecN]
  have hVg : ∀ i < c.n, ∀ k < 10, V[10 * i + k]? = some (some (linearOf c i k)) := by
    intro i hi k hk
    rw [hV, vecN, List.getElem?_map, List.getElem?_range (by omega), Option.map_some, show (10 * i + k) / 10 = i by omega,
      show (10 * i + k) % 10 = k by omega]
  have hread : (l.take (w.n - 0)).mapM (Wrap.readLink "m_CoM_") =
      some ((List.range w.n).map fun i => (List.range 10).map fun k => V.getD (10 * i + k) none) := by
    rw [List.take_of_length_le (by omega), show w.n = l.length by omega]
    refine Wrap.mapM_range l fun i hi => ?_
    obtain ⟨nd, inert, g1, g2, g3⟩ := hent i (by omega)
    have : l[i] = (some ("link" ++ toString (i + 1)), nd) := by
      have := List.getElem?_eq_getElem hi
      rw [g1] at this
      exact (Option.some.inj this).symm
    rw [this]
    unfold Wrap.readLink
    rw [Option.bind_some, getC_child g2, Option.bind_some, Wrap.readInertial_ok g3]
    refine congrArg some (List.map_congr_left fun k hk => ?_)
    rw [List.getD_eq_getElem?_getD, hVg i (by omega) k (List.mem_range.1 hk)]
    rfl
  have hloop := Wrap.regLoop_ok l 0 o _ h2 (Nat.zero_le _) hread
  rw [Wrap.flatten_pieces hVl, Nat.mul_zero, Wrap.splice_full (by rw [hVl, hl2])] at hloop
  have hs3 : Wrap.Sized w (o.set .REG V) := h2.set' (by rw [hVl, hl2])
  have hcons : Consistent c.n (vecN (10 * c.n) c.dyn) V := by
    refine ⟨by simp [vecN], by rw [hVl, hw], fun i hi => .inl ⟨fun k => c.dyn (10 * i + k), fun k hk => ?_, fun k hk => ?_⟩⟩
    · simp [vecN, List.getElem?_map, List.getElem?_range (show 10 * i + k < 10 * c.n by omega)]
    · rw [hVg i hi k hk]
      rfl
  have hreg := Wrap.eq_of_consistent hcons
  refine ⟨(o.set .REG V).set .DYN (dynOfRegW w.n V), ?_, ?_, ?_, ?_, rfl⟩
  · simp only [Wrap.Call.run, Wrap.loadREG, Wrap.yaml, getM_child hch, Yaml.isDef, Yaml.items, if_true, hloop, Wrap.Out.bind, Wrap.updateDYN_eq hs3,
      Wrap.set_vec_same]
    rfl
  · intro i hi k hk
    rw [Wrap.set_vec_ne _ _ (by decide), Wrap.set_vec_same, hVg i hi k hk]
  · rw [Wrap.set_vec_same, hreg, hw, Wrap.dyn_reg_of_realMass ⟨c.dyn, rfl, hm⟩]
    rfl
  · intro f h1 h2
    rw [Wrap.set_vec_ne _ _ h2, Wrap.set_vec_ne _ _ h1]

/-- C62: when the document is read back as it was written, an object of the generated class that loads the generated configuration can reach any values
of the variables and of the symbolic parameters; its answers are then those of C56–C61. -/
theorem C62_use (ha : Asks a name) (hf : (d.file a.configFile).bind env.parse = some y) (h : Describes y c) (hj : JointsOk c)
    (e : robotFromFile (String.ofList name) (some y) true = .ok r) (hh : env.home = true) (ht : Installed d a.python) (hw : Writable env d name)
    (hwc : CanWrite env d name (name ++ "_conf.yaml".toList)) (hy : env.parse (env.emit [] y) = some y) {c' : Conf} (hc : Retuned c c') (s : State c') :
    ∃ d', (∀ o, Gen.main env [] a d o ↔ o = .ok 1 d') ∧ ∃ calls o,
      Wrap.runAll (Wrap.cfgOf r) (.loadConf ((d'.file (outDir env.cwd name ++ name ++ "_conf.yaml".toList)).bind env.parse) true :: calls)
        (Wrap.init (Wrap.cfgOf r)) = some o ∧ Generated y c' s r o := by
  obtain ⟨d', h1, h2, -⟩ := C62 (us := []) ha hf h hj ⟨by simp, by simp, by simp⟩ (by simp) (by rw [fromFileWith_nil]; exact e) hh ht hw
  refine ⟨d', h1, ?_⟩
  rw [h2.conf hwc, Option.bind_some, hy]
  exact C61_reachable h hj hc s e

end

namespace Ex

open Spec Robot

/-- The command was called with `--python --casadi --copy` in `/work`. -/
noncomputable def genEnv : Env where
  cwd := ch "/work"
  home := true
  allowed := fun _ => true
  parse := fun t => if t = ch "arm" then some (fileOf arm) else none
  emit := fun _ _ => ch "arm"
  cHeader := fun _ => []
  cSource := fun _ => []
  stored := fun _ _ => []
  checked := true

def genArgs : Args := ⟨true, true, ch "robots/arm.yaml", none, true, true, true⟩

def genDirs : List (List Char) := [templateDir, ch "/work/"]

noncomputable def genDisk : Disk where
  dir := fun p => genDirs.contains p
  file := fun p =>
    if p = ch "robots/arm.yaml" then some (ch "arm") else
    if p = templateDir ++ ch "thunder_robot.h" then some headerFile else
    if p = templateDir ++ ch "thunder_robot.cpp" then some sourceFile else
    if p = templateDir ++ ch "CMakeLists.txt" then some (ch "project(thunder_robot)") else none

theorem dir_eq (p : List Char) : genDisk.dir p = genDirs.contains p := rfl
theorem file_eq (p : List Char) : genDisk.file p =
    if p = ch "robots/arm.yaml" then some (ch "arm") else
    if p = templateDir ++ ch "thunder_robot.h" then some headerFile else
    if p = templateDir ++ ch "thunder_robot.cpp" then some sourceFile else
    if p = templateDir ++ ch "CMakeLists.txt" then some (ch "project(thunder_robot)") else none := rfl

theorem asks_arm : Asks genArgs (ch "arm") :=
  ⟨rfl, rfl, ⟨ch "arm", ⟨by decide, .inr ⟨ch "robots", by decide⟩⟩, rfl⟩, by decide⟩

theorem installed_arm : Installed genDisk true where
  dir := by rw [dir_eq]; decide
  header := by
    rw [file_eq, if_neg (by decide), if_pos (by decide)]
  source := by
    rw [file_eq, if_neg (by decide), if_neg (by decide), if_pos (by decide)]
  cmake := fun _ => ⟨_, by
    rw [file_eq, if_neg (by decide), if_neg (by decide), if_neg (by decide), if_pos (by decide)]⟩

theorem noDir_arm (f : List Char) : genDisk.dir (outDir genEnv.cwd (ch "arm") ++ f ++ ['/']) = false := by
  rw [dir_eq, ← Bool.not_eq_true, List.contains_iff_mem]
  intro h
  simp only [genDirs, List.mem_cons, List.not_mem_nil, or_false] at h
  rcases h with h | h
  · have := congrArg (List.take 2) h
    rw [List.append_assoc, List.take_append_of_le_length (by decide)] at this
    exact absurd this (by decide)
  · have := congrArg List.length h
    rw [List.length_append, List.length_append, show (outDir genEnv.cwd (ch "arm")).length = 25 by decide, show (ch "/work/").length = 6 by decide] at this
    omega

theorem writable_arm : Writable genEnv genDisk (ch "arm") where
  cwd := by rw [dir_eq]; decide
  free := by
    rw [file_eq, if_neg (by decide), if_neg (by decide), if_neg (by decide), if_neg (by decide)]
  allowed := fun _ _ _ => rfl
  noDir := fun f _ _ => noDir_arm f

theorem parse_arm : genEnv.parse (ch "arm") = some (fileOf arm) := by
  show (if ch "arm" = ch "arm" then some (fileOf arm) else none) = _
  rw [if_pos rfl]

theorem file_arm : (genDisk.file genArgs.configFile).bind genEnv.parse = some (fileOf arm) := by
  rw [file_eq, if_pos (by decide)]
  exact parse_arm

/-- The hypotheses of C62 and C62_use can be met together. -/
example : ∃ d', (∀ o, @Gen.main fl genEnv [] genArgs genDisk o ↔ o = .ok 1 d') ∧
    d'.file (ch "/work/arm_generatedFiles/arm_conf.yaml") = some (ch "arm") ∧ d'.dir (ch "/work/arm_generatedFiles/") = true := by
  obtain ⟨g, e, -⟩ := @C56_start fl _ _ describes_arm joints_arm "arm" (robotName_of_check (f := "M") (by decide +kernel))
  obtain ⟨d', h1, h2, -, -, -, -, h3⟩ := @C62 fl genEnv [] genArgs genDisk (ch "arm") (fileOf arm) arm g asks_arm file_arm describes_arm joints_arm
    ⟨by simp, by simp, by simp⟩ (by simp) e rfl installed_arm writable_arm
  exact ⟨d', h1, h2.conf ⟨rfl, noDir_arm _⟩, (h3 _).2 (.inr (by decide))⟩

example : ∃ d', (∀ o, @Gen.main fl genEnv [] genArgs genDisk o ↔ o = .ok 1 d') ∧ ∃ g o, @Generated fl (fileOf arm) armTuned armState g o := by
  obtain ⟨g, e, -⟩ := @C56_start fl _ _ describes_arm joints_arm "arm" (robotName_of_check (f := "M") (by decide +kernel))
  obtain ⟨d', h1, calls, o, -, h2⟩ := @C62_use fl genEnv genArgs genDisk (ch "arm") (fileOf arm) arm g asks_arm file_arm describes_arm joints_arm
    e rfl installed_arm writable_arm ⟨rfl, noDir_arm _⟩ parse_arm _ retuned_arm armState
  exact ⟨d', h1, g, o, h2⟩

/-- The hypotheses of C62_reg can be met: the document written by the command. -/
example : ∃ z, RegDoc z arm.n (fun i k => some (linearOf arm i k)) ∧ (∀ i < arm.n, mass arm.dyn i ≠ 0) ∧
    ∃ o, Wrap.runAll (Wrap.cfg arm) [.resizeVariables] (Wrap.init (Wrap.cfg arm)) = some o := by
  obtain ⟨g, e, -⟩ := @C56_start fl _ _ describes_arm joints_arm "arm" (robotName_of_check (f := "M") (by decide +kernel))
  obtain ⟨d', h1, h2, -, -, -, -, h3⟩ := @C62 fl genEnv [] genArgs genDisk (ch "arm") (fileOf arm) arm g asks_arm file_arm describes_arm joints_arm
    ⟨by simp, by simp, by simp⟩ (by simp) e rfl installed_arm writable_arm
  obtain ⟨-, z, -, hz⟩ := h2.reg ⟨rfl, noDir_arm _⟩
  refine ⟨z, hz, fun i _ => ?_, _, rfl⟩
  show ((10 * i : ℕ) : ℝ) + 1 ≠ 0
  positivity

/-- The same computer, except that the configuration cannot be written. -/
noncomputable def genEnv' : Env := { genEnv with allowed := fun p => decide (p ≠ ch "/work/arm_generatedFiles/arm_conf.yaml") }

/-- C62: the command returns 1 although the configuration was not written. -/
theorem C62_silent : ∃ d', (∀ o, @Gen.main fl genEnv' [] genArgs genDisk o ↔ o = .ok 1 d') ∧
    d'.file (ch "/work/arm_generatedFiles/arm_conf.yaml") = none := by
  obtain ⟨g, e, -⟩ := @C56_start fl _ _ describes_arm joints_arm "arm" (robotName_of_check (f := "M") (by decide +kernel))
  have hw : Writable genEnv' genDisk (ch "arm") := { writable_arm with
    allowed := fun f _ hf => by
      refine decide_eq_true fun e => ?_
      refine hf (.inl (List.append_cancel_left (as := outDir (ch "/work") (ch "arm")) (e.trans (by decide)))) }
  obtain ⟨d', h1, -, -, -, h2, -⟩ := @C62 fl genEnv' [] genArgs genDisk (ch "arm") (fileOf arm) arm g asks_arm file_arm describes_arm joints_arm
    ⟨by simp, by simp, by simp⟩ (by simp) e rfl installed_arm hw
  refine ⟨d', h1, (h2 (ch "arm_conf.yaml") (.inl (by decide)) fun h => absurd h.1 (by decide)).trans ?_⟩
  rw [file_eq, if_neg (by decide), if_neg (by decide), if_neg (by decide), if_neg (by decide)]

end Ex

end Thunder

import Verif.Proofs.Succeeds
import Verif.Props.C69
import Verif.Props.C76
import Verif.Props.C89
/-!
# C90: when the commands succeed

For every command, exactly in which cases the program ends with exit code 0.
-/
set_option linter.unusedSimpArgs false
namespace ReqIF.Cli
open Spec

theorem exit_success (env : Env) (argv : List Str) (k : FileCommand) (i o : Str) (h : Invokes argv (.files k i o)) (fs : Files) :
    exitCode (cliMain env argv fs).1 = 0 ↔ (FileCommand.run env k i o fs).1 = .ok .success := by
  rw [C69_files env argv k i o h]
  cases (FileCommand.run env k i o fs).1 with
  | error e => simp [Except.map, exitCode]
  | ok x => cases x <;> simp [Except.map, exitCode]

theorem outputThere_iff (os : OsEnv) (o : Str) : OutputThere os true o ↔ os.openError o = none ∧ outputDirOk os o = true := by
  unfold OutputThere
  refine and_congr_right fun _ => ?_
  rw [← Bool.not_eq_false (outputDirOk os o), outputDirOk_false]
  constructor
  · rintro h ⟨d, h1, h2, h3⟩
    rw [h rfl d h1 h2] at h3
    cases h3
  · intro h _ d h1 h2
    cases hd : os.isDir d
    · exact absurd ⟨d, h1, h2, hd⟩ h
    · rfl

theorem write_success (os : OsEnv) (o : Str) (bytes : ByteArray) (fs : Files) :
    (M.bind (writeFile os o bytes) (fun _ => M.pure CommandEnd.success) fs).1 = .ok .success ↔ os.openError o = none := by
  rcases writeFile_cases os o bytes fs with ⟨e, h1, h2⟩ | ⟨h1, h2⟩
  · rw [h2, h1]; simp
  · rw [h2, h1]; simp

theorem passes_iff (text : Str) : Passes text ↔ ∃ b out, parseString text = .ok b ∧ unparse b = .ok out := (C89_passes text).symm

theorem endsWith_iff (s suffix : Str) : endsWith s suffix = true ↔ ∃ pre, s = pre ++ suffix := by
  unfold endsWith
  rw [List.isPrefixOf_iff_prefix]
  constructor
  · rintro ⟨t, h⟩
    exact ⟨t.reverse, by have := congrArg List.reverse h; simpa using this.symm⟩
  · rintro ⟨pre, rfl⟩
    exact ⟨pre.reverse, by simp⟩

/-- `passthrough` over any kind of file. -/
theorem run_passthrough (env : Env) (i o : Str) (fs : Files) :
    (FileCommand.run env .passthrough i o fs).1 = .ok .success ↔
      (∃ src bytes, fs i = some src ∧
        (if endsWith i c!".reqifz" = true then passthroughZBytes env.os (.ok src) else passthroughBytes (.ok src)) = .ok bytes) ∧
      OutputThere env.os true o := by
  rw [outputThere_iff]
  show (passthroughCommand env.os i o fs).1 = _ ↔ _
  unfold passthroughCommand readFile
  cases hi : fs i with
  | none => simp
  | some src =>
    simp only [Option.isNone_some, Bool.false_eq_true, if_false, Option.some.injEq, exists_and_left, exists_eq_left']
    cases ho : outputDirOk env.os o with
    | false => simp
    | true =>
      simp only [Bool.not_true, Bool.false_eq_true, if_false, and_true]
      cases hr : (if endsWith i c!".reqifz" = true then passthroughZBytes env.os (.ok src) else passthroughBytes (.ok src)) with
      | error e => simp
      | ok bytes => simp [write_success]

/-- **C90**, `passthrough` of a document: exit code 0 exactly if the file exists, is UTF-8, and
holds a document that can be read and written again, and the output can be written. -/
theorem C90_passthrough (env : Env) (argv : List Str) (i o : Str) (h : Invokes argv (.files .passthrough i o)) (fs : Files)
    (hz : ∀ pre, i ≠ pre ++ c!".reqifz") :
    exitCode (cliMain env argv fs).1 = 0 ↔ (∃ text, Holds fs i text ∧ Passes (normEol text)) ∧ OutputThere env.os true o := by
  rw [exit_success env argv _ i o h, run_passthrough]
  have hz' : ¬ endsWith i c!".reqifz" = true := by
    rw [endsWith_iff]
    rintro ⟨pre, e⟩
    exact hz pre e
  simp only [if_neg hz', passthroughBytes_ok]
  refine and_congr_left fun _ => ?_
  unfold Holds PassthroughOf
  constructor
  · rintro ⟨src, bytes, h1, text, b, out, h2, h3, h4, -⟩
    exact ⟨text, ⟨src, h1, h2⟩, (passes_iff _).2 ⟨b, out, h3, h4⟩⟩
  · rintro ⟨text, ⟨src, h1, h2⟩, hp⟩
    obtain ⟨b, out, h3, h4⟩ := (passes_iff _).1 hp
    exact ⟨src, _, h1, text, b, out, h2, h3, h4, rfl⟩

theorem repacks_iff (ar : Archive) : (∃ members, Repacked ar members) ↔ ArchivePasses ar := by
  constructor
  · rintro ⟨members, h1, h2⟩ m hm
    have hn : m.1 ∈ repackedNames ar := by
      rw [repackedNames_mem]
      exact List.mem_map.2 ⟨m, hm, rfl⟩
    rw [← h1] at hn
    obtain ⟨m', hm', e⟩ := List.mem_map.1 hn
    obtain ⟨bytes, h3, h4, -⟩ := h2 m' hm'
    rw [e] at h3 h4
    refine ⟨bytes, h3, fun hr => ?_⟩
    obtain ⟨text, b, out, h5, h6, h7, -⟩ := h4 hr
    exact ⟨text, h5, (passes_iff _).2 ⟨b, out, h6, h7⟩⟩
  · intro h
    have hall : ∀ n ∈ repackedNames ar, ∃ bytes', memberOut ar n = .ok bytes' := by
      intro n hn
      rw [repackedNames_mem] at hn
      obtain ⟨m, hm, rfl⟩ := List.mem_map.1 hn
      obtain ⟨bytes, h1, h2⟩ := h m hm
      by_cases hr : ReqifMember m.1
      · obtain ⟨text, h3, h4⟩ := h2 hr
        obtain ⟨b, out, h5, h6⟩ := (passes_iff _).1 h4
        exact ⟨out.utf8Encode, memberOut_ok.2 ⟨bytes, h1, fun _ => ⟨text, b, out, h3, h5, h6, rfl⟩, fun hn => absurd hr hn⟩⟩
      · exact ⟨bytes, memberOut_ok.2 ⟨bytes, h1, fun hn => absurd hn hr, fun _ => rfl⟩⟩
    refine ⟨(repackedNames ar).map (fun n => (n, (memberOut ar n).toOption.getD .empty)), repacked_iff.1 ?_⟩
    rw [List.map_map]
    apply List.map_congr_left
    intro n hn
    obtain ⟨bytes', e⟩ := hall n hn
    simp [e, Except.toOption]

/-- **C90**, `passthrough` of an archive: exit code 0 exactly if the file exists and is a zip file,
every member can be read, every document among them can be read and written again, and the output
can be written. -/
theorem C90_archive (env : Env) (argv : List Str) (pre o : Str) (h : Invokes argv (.files .passthrough (pre ++ c!".reqifz") o)) (fs : Files) :
    exitCode (cliMain env argv fs).1 = 0 ↔
      (∃ src ar, fs (pre ++ c!".reqifz") = some src ∧ env.os.zipRead src = .ok ar ∧ ArchivePasses ar) ∧ OutputThere env.os true o := by
  rw [exit_success env argv _ _ o h, run_passthrough]
  have hz' : endsWith (pre ++ c!".reqifz") c!".reqifz" = true := (endsWith_iff _ _).2 ⟨pre, rfl⟩
  simp only [if_pos hz', C76_archive]
  refine and_congr_left fun _ => ?_
  constructor
  · rintro ⟨src, bytes, h1, ar, members, h2, h3, -⟩
    exact ⟨src, ar, h1, h2, (repacks_iff ar).1 ⟨members, h3⟩⟩
  · rintro ⟨src, ar, h1, h2, h3⟩
    obtain ⟨members, h4⟩ := (repacks_iff ar).2 h3
    exact ⟨src, _, h1, ar, members, h2, h4, rfl⟩

/-- **C90**, `anonymize`: exit code 0 exactly if the file exists, is UTF-8 and holds a document that
can be anonymized, and the output can be written. -/
theorem C90_anonymize (env : Env) (argv : List Str) (i o : Str) (h : Invokes argv (.files .anonymize i o)) (fs : Files) :
    exitCode (cliMain env argv fs).1 = 0 ↔ (∃ text, Holds fs i text ∧ Anonymizable (normEol text)) ∧ OutputThere env.os true o := by
  rw [exit_success env argv _ i o h, outputThere_iff]
  show (anonymizeCommand env.os env.hash env.print i o fs).1 = _ ↔ _
  have e : (∃ text, Holds fs i text ∧ Anonymizable (normEol text)) ↔ ∃ src, fs i = some src ∧ ∃ out, anonymize env.hash env.print (.ok src) = .ok out := by
    simp only [anonymize_ok]
    unfold Holds
    constructor
    · rintro ⟨text, ⟨src, h1, h2⟩, h3⟩; exact ⟨src, h1, text, h2, h3⟩
    · rintro ⟨src, h1, text, h2, h3⟩; exact ⟨text, ⟨src, h1, h2⟩, h3⟩
  rw [e]
  unfold anonymizeCommand readFile
  cases hi : fs i with
  | none => simp
  | some src =>
    simp only [Option.isNone_some, Bool.false_eq_true, if_false, Option.some.injEq, exists_eq_left']
    cases ha : anonymize env.hash env.print (.ok src) with
    | error e => simp
    | ok text =>
      cases ho : outputDirOk env.os o with
      | false => simp
      | true => simp [write_success]

/-- **C90**, `dump`: exit code 0 exactly if the file exists, is UTF-8 and is read to a bundle that
has the lists the page goes through and whose trees refer to objects, and the output can be
written.  The command does not look at the directory first. -/
theorem C90_dump (env : Env) (argv : List Str) (i o : Str) (h : Invokes argv (.files .dump i o)) (fs : Files) :
    exitCode (cliMain env argv fs).1 = 0 ↔
      (∃ text b, Holds fs i text ∧ parseString (normEol text) = .ok b ∧ Dumpable b) ∧ OutputThere env.os false o := by
  rw [exit_success env argv _ i o h]
  have ho : OutputThere env.os false o ↔ env.os.openError o = none := by unfold OutputThere; simp
  rw [ho]
  show (M.bind (Dump.dumpCommand env.os env.repr i o) (fun _ => M.pure CommandEnd.success) fs).1 = _ ↔ _
  have hm : (M.bind (Dump.dumpCommand env.os env.repr i o) (fun _ => M.pure CommandEnd.success) fs).1 = .ok .success ↔
      (Dump.dumpCommand env.os env.repr i o fs).1 = .ok () := by
    unfold M.bind
    rcases Dump.dumpCommand env.os env.repr i o fs with ⟨r | r, fs'⟩
    · simp
    · simp [M.pure]
  rw [hm]
  constructor
  · intro h0
    rcases C64_command env.os env.repr i o fs with ⟨src, s, b, page, h1, h2, h3, h4, h5⟩ | ⟨⟨e, h1⟩, -⟩
    · refine ⟨⟨s, b, ⟨src, h1, h2⟩, h3, (C64_succeeds env.repr b).1 ⟨page, h4⟩⟩, ?_⟩
      unfold Dump.dumpCommand at h0
      have hr : readFile fs i = .ok src := by simp [readFile, h1]
      have hp : (parseFile (none : Option (Callback Unit)) (.ok src) ()).1 = .ok b := by
        unfold parseFile
        simp only [M.bind, M.lift, h2]
        exact h3
      rw [hr, hp] at h0
      dsimp only at h0
      rw [h4] at h0
      dsimp only at h0
      unfold writeFile at h0
      cases ho : env.os.openError o with
      | none => rfl
      | some e => rw [ho] at h0; cases h0
    · rw [h1] at h0; cases h0
  · rintro ⟨⟨s, b, ⟨src, h1, h2⟩, h3, h4⟩, h5⟩
    obtain ⟨page, h4⟩ := (C64_succeeds env.repr b).2 h4
    unfold Dump.dumpCommand
    have hr : readFile fs i = .ok src := by simp [readFile, h1]
    have hp : (parseFile (none : Option (Callback Unit)) (.ok src) ()).1 = .ok b := by
      unfold parseFile
      simp only [M.bind, M.lift, h2]
      exact h3
    rw [hr, hp]
    dsimp only
    rw [h4]
    dsimp only
    unfold writeFile
    rw [h5]

/-- **C90**, `format`: exit code 0 exactly if the file exists, is UTF-8 and well-formed, and the
output can be written.  The command does not look at the directory first. -/
theorem C90_format (env : Env) (argv : List Str) (i o : Str) (h : Invokes argv (.files .format i o)) (fs : Files) :
    exitCode (cliMain env argv fs).1 = 0 ↔ (∃ text d, Holds fs i text ∧ readDoc text = some d) ∧ OutputThere env.os false o := by
  rw [exit_success env argv _ i o h]
  have ho : OutputThere env.os false o ↔ env.os.openError o = none := by unfold OutputThere; simp
  rw [ho]
  refine (Format.C67_succeeds env.os env.keep i o fs).trans (and_congr_left fun _ => ?_)
  unfold Holds
  constructor
  · rintro ⟨src, text, d, h1, h2, h3⟩; exact ⟨text, d, ⟨src, h1, h2⟩, h3⟩
  · rintro ⟨text, d, ⟨src, h1, h2⟩, h3⟩; exact ⟨src, text, d, h1, h2, h3⟩

theorem dangling_iff (b : Bundle) (ref : Option Str) : dangling (specObjectsOf b) ref = false ↔ NamesObject b ref := by
  unfold dangling NamesObject
  cases ref with
  | none => simp
  | some r => simp

theorem fileIssues_nil (d : Doc) : fileIssues d = [] ↔
    (d.root.children ≠ [] → ∃ decl, d.decl = some decl ∧ ∀ e, decl.encoding = some e → e = c!"UTF-8") := by
  unfold fileIssues
  by_cases hc : d.root.children = []
  · simp [hc]
  · rw [if_neg hc]
    cases d.decl with
    | none => simp [hc]
    | some decl =>
      cases he : decl.encoding with
      | none => simp [he]
      | some e => simp [he, hc]

theorem noIssues_iff (d : Doc) (b : Bundle) : semanticIssues d b = [] ↔
    (d.root.children ≠ [] → ∃ decl, d.decl = some decl ∧ ∀ e, decl.encoding = some e → e = c!"UTF-8") ∧
    (∀ r ∈ specRelationsOf b, NamesObject b r.source ∧ NamesObject b r.target) ∧
    (∀ s ∈ specificationsOf b, ∀ h ∈ preorderList (s.children.getD []), NamesObject b h.info.specObject) := by
  unfold semanticIssues
  rw [List.append_eq_nil_iff, List.append_eq_nil_iff, fileIssues_nil, List.flatMap_eq_nil_iff, List.flatMap_eq_nil_iff, and_assoc]
  refine and_congr_right fun _ => and_congr ?_ ?_
  · refine forall_congr' fun r => forall_congr' fun _ => ?_
    rw [← dangling_iff, ← dangling_iff]
    unfold relationEnds
    cases dangling (specObjectsOf b) r.source <;> cases dangling (specObjectsOf b) r.target <;> simp
  · refine forall_congr' fun s => forall_congr' fun _ => ?_
    unfold hierarchyRefs
    simp only [List.map_eq_nil_iff, List.filter_eq_nil_iff, Bool.not_eq_true, dangling_iff]

theorem validateParsed_clean (src : ByteArray) : (∃ e, validateParsed (.ok src) = .ok e ∧ e.xmlErrors = [] ∧ e.schemaErrors = [] ∧ e.semanticWarnings = []) ↔
    ∃ s, decodeUtf8 src = .ok s ∧ NoIssues (normEol s) := by
  have hp : ∀ s, decodeUtf8 src = .ok s → (parseFile (none : Option (Callback Unit)) (.ok src) ()).1 = parseString (normEol s) := by
    intro s hs
    unfold parseFile
    simp only [M.bind, M.lift, hs]
    rfl
  constructor
  · rintro ⟨e, h1, h2, h3, h4⟩
    cases hs : decodeUtf8 src with
    | error x =>
      exfalso
      have e' : (parseFile (none : Option (Callback Unit)) (.ok src) ()).1 = .error x := by
        unfold parseFile
        simp only [M.bind, M.lift, hs]
      unfold validateParsed at h1
      rw [e'] at h1
      cases x <;> cases h1
      cases h2
    | ok s =>
      cases hb : parseString (normEol s) with
      | error x =>
        exfalso
        unfold validateParsed at h1
        rw [hp s hs, hb] at h1
        cases x <;> cases h1
        cases h2
      | ok b =>
        obtain ⟨d, hd, h5⟩ := C28_semantic_issues src s b hs hb
        rw [h5] at h1
        cases h1
        exact ⟨s, rfl, d, b, hd, hb, by simpa using h3, (noIssues_iff d b).1 h4⟩
  · rintro ⟨s, hs, d, b, hd, hb, h1, h2⟩
    obtain ⟨d', hd', h5⟩ := C28_semantic_issues src s b hs hb
    rw [hd] at hd'
    cases hd'
    refine ⟨_, h5, rfl, by simp [h1], (noIssues_iff d b).2 h2⟩

/-- **C90**, `validate`: exit code 0 exactly if the file exists, is UTF-8 and holds a document
without issues, and the strict check, if asked for, comes to the result that it is valid. -/
theorem C90_validate (env : Env) (argv : List Str) (i : Str) (s : Bool) (h : Invokes argv (.validate i s)) (fs : Files) :
    exitCode (cliMain env argv fs).1 = 0 ↔
      (∃ text, Holds fs i text ∧ NoIssues (normEol text)) ∧
      (s = true → (strictCheck (env.schema fs i) env.root env.cwd).1 = .ok .valid) := by
  rw [(C69_validate_exit env argv i s h fs).1]
  have e : (∃ text, Holds fs i text ∧ NoIssues (normEol text)) ↔ (fs i).isSome = true ∧
      ∃ e, validateParsed (readFile fs i) = .ok e ∧ e.xmlErrors = [] ∧ e.schemaErrors = [] ∧ e.semanticWarnings = [] := by
    unfold Holds readFile
    cases fs i with
    | none => simp
    | some src =>
      simp only [validateParsed_clean, Option.some.injEq, exists_eq_left', Option.isSome_some, true_and]
  rw [e, and_assoc]
  refine and_congr_right fun _ => ?_
  unfold validate
  cases s with
  | false =>
    simp only [Bool.false_eq_true, if_false, false_implies, and_true, M.lift, Prod.mk.injEq]
    constructor
    · rintro ⟨e, cwd', ⟨h1, -⟩, h2⟩; exact ⟨e, h1, h2⟩
    · rintro ⟨e, h1, h2⟩; exact ⟨e, env.cwd, ⟨h1, rfl⟩, h2⟩
  | true =>
    simp only [if_true, true_implies]
    constructor
    · rintro ⟨e, cwd', h1, h2⟩
      obtain ⟨v, s1, h3, h4⟩ := M.bind_inv h1
      cases v with
      | invalid =>
        cases h4
        exact absurd h2.2.1 (by simp)
      | valid =>
        have h5 : validateParsed (readFile fs i) = .ok e := by
          have := congrArg Prod.fst h4
          exact this
        exact ⟨⟨e, h5, h2⟩, by rw [h3]⟩
    · rintro ⟨⟨e, h1, h2⟩, h3⟩
      refine ⟨e, (strictCheck (env.schema fs i) env.root env.cwd).2, ?_, h2⟩
      rw [M.bind_ok (show strictCheck (env.schema fs i) env.root env.cwd = (.ok .valid, _) from Prod.ext h3 rfl)]
      show (validateParsed (readFile fs i), _) = _
      rw [h1]

/-! ## Concrete cases -/

/-- Is the text anonymized? -/
def isAnonymized (text : Str) : Bool :=
  match readDoc text with
  | none => false
  | some d => (anonymizeTree (fun _ => 0) d.root).isOk

theorem isAnonymized_iff (text : Str) : isAnonymized text = true ↔ Anonymizable text := by
  unfold isAnonymized Anonymizable
  cases hd : readDoc text with
  | none => simp
  | some d =>
    simp only [Option.some.injEq, exists_and_left, exists_eq_left']
    by_cases hn : d.root.nsmap = []
    · have e : anonymizeTree (fun _ => 0) d.root = .error .keyError := by
        unfold anonymizeTree
        rw [hn]
        rfl
      rw [e, hn]
      simp [NsMap.get?, Except.isOk, Except.toBool]
    · rw [← anonymizeTree_ok (fun _ => 0) d.root (readDoc_scoped hd hn)]
      unfold Accept.Ok
      cases anonymizeTree (fun _ => 0) d.root <;> simp [Except.isOk, Except.toBool]

/-- A document with this comment in its header and this XHTML value. -/
def maskedDoc (comment value : Str) : Str :=
  c!"<REQ-IF xmlns=\"u\"><THE-HEADER><REQ-IF-HEADER IDENTIFIER=\"h\">" ++ comment ++ c!"</REQ-IF-HEADER></THE-HEADER>" ++
  c!"<ATTRIBUTE-VALUE-XHTML><THE-VALUE>" ++ value ++ c!"</THE-VALUE></ATTRIBUTE-VALUE-XHTML></REQ-IF>"

set_option maxRecDepth 20000 in
example : Anonymizable (maskedDoc c!"<COMMENT>c</COMMENT><TITLE>t</TITLE>" c!"<div>d</div>") :=
  (isAnonymized_iff _).1 (by decide +kernel)

set_option maxRecDepth 20000 in
/-- **C90**, not anonymized: a header with an empty comment (which the schema allows). -/
theorem C90_empty_comment : ¬ Anonymizable (maskedDoc c!"<COMMENT/>" c!"<div>d</div>") := by
  rw [← isAnonymized_iff]
  decide +kernel

set_option maxRecDepth 20000 in
/-- **C90**, not anonymized: an XHTML value with a comment in it (which the schema allows). -/
theorem C90_value_comment : ¬ Anonymizable (maskedDoc c!"<COMMENT>c</COMMENT>" c!"<div><!--x-->d</div>") := by
  rw [← isAnonymized_iff]
  decide +kernel

/-- An environment in which every file can be written and there are no directories. -/
def calmEnv : Env where
  os := exOs
  repr := id
  keep := fun _ => true
  hash := fun _ => 0
  print := fun _ => []
  messages := ⟨fun _ => [], []⟩
  schema := fun _ _ => ⟨none, fun _ => none, M.pure .valid⟩
  root := []
  cwd := []

/-- The only file. -/
noncomputable def onlyFile (text : Str) : Files := fun p => if p = c!"a" then some text.utf8Encode else none

theorem onlyFile_holds (text : Str) : Holds (onlyFile text) c!"a" text :=
  ⟨text.utf8Encode, rfl, decodeUtf8_encode text⟩

theorem plain_there (checked : Bool) : OutputThere calmEnv.os checked c!"b" := by
  refine ⟨rfl, fun _ d h hd => ?_⟩
  have := (outputThere_iff calmEnv.os c!"b").2 ⟨rfl, by decide⟩
  exact this.2 rfl d h hd

/-- A document for which every command succeeds. -/
def calmDocument : Str := c!"<REQ-IF xmlns=\"u\"><TOOL-EXTENSIONS/></REQ-IF>"

set_option maxRecDepth 20000 in
/-- All commands end with exit code 0. -/
theorem calmDocument_passes (k : FileCommand) : exitCode (cliMain calmEnv [k.name, c!"a", c!"b"]
    (onlyFile calmDocument)).1 = 0 := by
  unfold calmDocument
  have hi : NoOption false c!"a" := .inl (by intro r h; cases h)
  have ho : NoOption false c!"b" := .inl (by intro r h; cases h)
  have hn : normEol c!"<REQ-IF xmlns=\"u\"><TOOL-EXTENSIONS/></REQ-IF>" = c!"<REQ-IF xmlns=\"u\"><TOOL-EXTENSIONS/></REQ-IF>" := by decide
  have hp : ∃ b out, parseString c!"<REQ-IF xmlns=\"u\"><TOOL-EXTENSIONS/></REQ-IF>" = .ok b ∧ unparse b = .ok out :=
    (isPassed_iff _).1 (by decide +kernel)
  cases k with
  | passthrough =>
    rw [C90_passthrough _ _ _ _ (.files .passthrough hi ho) _ (by
      intro pre e
      have := congrArg List.length e
      simp at this)]
    exact ⟨⟨_, onlyFile_holds _, by rw [hn]; exact (passes_iff _).2 hp⟩, plain_there true⟩
  | anonymize =>
    rw [C90_anonymize _ _ _ _ (.files .anonymize hi ho)]
    exact ⟨⟨_, onlyFile_holds _, by rw [hn]; exact (isAnonymized_iff _).1 (by decide +kernel)⟩, plain_there true⟩
  | dump =>
    rw [C90_dump _ _ _ _ (.files .dump hi ho)]
    obtain ⟨b, out, hb, -⟩ := hp
    refine ⟨⟨_, b, onlyFile_holds _, by rw [hn]; exact hb, ?_⟩, plain_there false⟩
    have hc : (match parseString c!"<REQ-IF xmlns=\"u\"><TOOL-EXTENSIONS/></REQ-IF>" with
      | .ok b => b.coreContent.isNone
      | .error _ => false) = true := by decide +kernel
    rw [hb] at hc
    intro c e
    dsimp only at hc
    rw [e] at hc
    cases hc
  | format =>
    rw [C90_format _ _ _ _ (.files .format hi ho)]
    have hd : (readDoc c!"<REQ-IF xmlns=\"u\"><TOOL-EXTENSIONS/></REQ-IF>").isSome = true := by decide +kernel
    obtain ⟨d, hd⟩ := Option.isSome_iff_exists.1 hd
    exact ⟨⟨_, d, onlyFile_holds _, hd⟩, plain_there false⟩

/-- Without the input no command succeeds; here `dump`, which does not look for it first. -/
example : exitCode (cliMain calmEnv [c!"dump", c!"x", c!"b"] (onlyFile [])).1 ≠ 0 := by
  intro h
  have h := (C90_dump calmEnv _ c!"x" c!"b" (.files .dump (.inl (by intro r h; cases h)) (.inl (by intro r h; cases h))) _).1 h
  obtain ⟨⟨text, b, ⟨src, h1, -⟩, -⟩, -⟩ := h
  cases h1

/-- The output directory is not there. -/
example : ¬ OutputThere calmEnv.os true c!"b/c" := by
  rw [outputThere_iff]
  decide

set_option maxRecDepth 20000 in
/-- A document without issues, and one without a declaration. -/
example : exitCode (cliMain calmEnv [c!"validate", c!"a"]
      (onlyFile c!"<?xml version=\"1.0\"?><REQ-IF><TOOL-EXTENSIONS/></REQ-IF>")).1 = 0 ∧
    exitCode (cliMain calmEnv [c!"validate", c!"a"] (onlyFile c!"<REQ-IF><TOOL-EXTENSIONS/></REQ-IF>")).1 ≠ 0 := by
  have hv : Invokes [c!"validate", c!"a"] (.validate c!"a" false) :=
    .validate (pre := []) (post := []) (.inl (by intro r h; cases h)) (by simp) (by simp)
  constructor
  · rw [C90_validate _ _ _ _ hv]
    refine ⟨⟨_, onlyFile_holds _, ?_⟩, fun h => by cases h⟩
    have hn : normEol c!"<?xml version=\"1.0\"?><REQ-IF><TOOL-EXTENSIONS/></REQ-IF>" =
        c!"<?xml version=\"1.0\"?><REQ-IF><TOOL-EXTENSIONS/></REQ-IF>" := by decide
    rw [hn]
    have hc : (match readDoc c!"<?xml version=\"1.0\"?><REQ-IF><TOOL-EXTENSIONS/></REQ-IF>",
        parseString c!"<?xml version=\"1.0\"?><REQ-IF><TOOL-EXTENSIONS/></REQ-IF>" with
      | some d, .ok b => d.decl.isSome && (d.decl.bind (·.encoding)).isNone && b.coreContent.isNone && b.exceptions.isEmpty
      | _, _ => false) = true := by decide +kernel
    cases hd : readDoc c!"<?xml version=\"1.0\"?><REQ-IF><TOOL-EXTENSIONS/></REQ-IF>" with
    | none => rw [hd] at hc; cases hc
    | some d =>
      cases hb : parseString c!"<?xml version=\"1.0\"?><REQ-IF><TOOL-EXTENSIONS/></REQ-IF>" with
      | error e => rw [hd, hb] at hc; cases hc
      | ok b =>
        rw [hd, hb] at hc
        simp only [Bool.and_eq_true, List.isEmpty_iff, Option.isNone_iff_eq_none] at hc
        obtain ⟨⟨⟨h1, h2⟩, h3⟩, h4⟩ := hc
        obtain ⟨decl, h1⟩ := Option.isSome_iff_exists.1 h1
        rw [h1] at h2
        have e1 : specRelationsOf b = [] := by unfold specRelationsOf; rw [h3]
        have e2 : specificationsOf b = [] := by unfold specificationsOf; rw [h3]
        refine ⟨d, b, hd, hb, h4, fun _ => ⟨decl, h1, fun e he => ?_⟩, by rw [e1]; simp, by rw [e2]; simp⟩
        have h2' : decl.encoding = none := h2
        rw [h2'] at he
        cases he
  · intro h
    have h := (C90_validate _ _ _ _ hv _).1 h
    obtain ⟨⟨text, ⟨src, h1, h2⟩, d, b, hd, -, -, h3, -⟩, -⟩ := h
    have e : src = List.utf8Encode c!"<REQ-IF><TOOL-EXTENSIONS/></REQ-IF>" := by
      unfold onlyFile at h1
      rw [if_pos rfl] at h1
      exact (Option.some.inj h1).symm
    subst e
    rw [decodeUtf8_encode] at h2
    cases h2
    have hn : normEol c!"<REQ-IF><TOOL-EXTENSIONS/></REQ-IF>" = c!"<REQ-IF><TOOL-EXTENSIONS/></REQ-IF>" := by decide
    rw [hn] at hd
    have hc : (match readDoc c!"<REQ-IF><TOOL-EXTENSIONS/></REQ-IF>" with
      | some d => d.decl.isNone && !d.root.children.isEmpty
      | _ => false) = true := by decide +kernel
    rw [hd] at hc
    simp only [Bool.and_eq_true, Option.isNone_iff_eq_none, Bool.not_eq_true', List.isEmpty_eq_false_iff] at hc
    obtain ⟨decl, h4, -⟩ := h3 hc.2
    rw [hc.1] at h4
    cases h4

end ReqIF.Cli

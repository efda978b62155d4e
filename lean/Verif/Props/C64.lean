import Verif.Proofs.DumpParts
import Verif.Props.C25_31
import Verif.Props.C58_60
import Verif.Props.C61_62
/-!
# C64: the dump page shows the content

The page shows the header, the data types, the spec types, and for every specification
its name and the object of every node of its tree, in document order.  It is rendered for
exactly the bundles whose lists are there and whose nodes refer to objects; a run that
does not succeed leaves the output file alone.
-/
namespace ReqIF
open Spec Dump

/-- **C64.** The headings and table cells of the page, in order, are those the bundle asks
for. -/
theorem C64_page {repr : Str → Str} {b : Bundle} {page : Str} (h : dumpText repr b = .ok page)
    (hs : PageSafe repr b) : elements page = pageCells repr b := by
  unfold dumpText at h
  obtain ⟨dt, h1, h⟩ := py_bind_inv h
  obtain ⟨st, h2, h⟩ := py_bind_inv h
  obtain ⟨sp, h3, h⟩ := py_bind_inv h
  rw [py_pure] at h
  cases h
  have key : Emits dt (match b.coreContent with
        | some (some c) => (c.dataTypes.getD []).flatMap (fun d => identifierCells d.identifier)
        | _ => []) ∧
      Emits st (match b.coreContent with
        | some (some c) => (c.specTypes.getD []).flatMap (fun t => identifierCells t.identifier)
        | _ => []) ∧
      Emits sp (match b.coreContent with
        | some (some c) => (c.specifications.getD []).flatMap (specificationCells repr b.lookup)
        | _ => []) := by
    unfold specificationsPart at h3
    match hc : b.coreContent with
    | none =>
      rw [hc] at h1 h2 h3
      cases h1; cases h2; cases h3
      exact ⟨Emits.nil, Emits.nil, Emits.nil⟩
    | some none =>
      rw [hc] at h1 h2 h3
      cases h1; cases h2; cases h3
      exact ⟨emits_quiet (by decide), emits_quiet (by decide), emits_quiet (by decide)⟩
    | some (some c) =>
      rw [hc] at h1 h2 h3
      dsimp only at h3 ⊢
      unfold dataTypesPart loopOver at h1
      unfold specTypesPart loopOver at h2
      dsimp only at h1 h2
      refine ⟨?_, ?_, ?_⟩
      · cases hd : c.dataTypes with
        | none => rw [hd] at h1; cases h1
        | some ds =>
          rw [hd] at h1
          cases h1
          refine Emits.of ((emits_quiet (s := c!"\n  \n  ") (by decide)).append
            ((emits_dataTypes (hs.dataTypes c ds hc hd)).append
            (emits_quiet (s := c!"\n  \n  ") (by decide)))) ?_ ?_
          · simp only [List.append_assoc]; rfl
          · simp
      · cases hd : c.specTypes with
        | none => rw [hd] at h2; cases h2
        | some ts =>
          rw [hd] at h2
          cases h2
          refine Emits.of ((emits_quiet (s := c!"\n  \n  ") (by decide)).append
            ((emits_specTypes (hs.specTypes c ts hc hd)).append
            (emits_quiet (s := c!"\n  \n  ") (by decide)))) ?_ ?_
          · simp only [List.append_assoc]; rfl
          · simp
      · cases hd : c.specifications with
        | none => rw [hd] at h3; cases h3
        | some ss =>
          rw [hd] at h3
          dsimp only at h3
          cases hp : specificationParts repr b 0 ss with
          | error e => rw [hp] at h3; cases h3
          | ok parts =>
            rw [hp] at h3
            cases h3
            have hall : b.specifications? = some ss := by
              unfold Bundle.specifications?
              rw [hc]
              exact hd
            refine Emits.of ((emits_quiet (s := c!"\n\n\n") (by decide)).append
              ((emits_specifications hall (i := 0) (by simp) hp (hs.titles c ss hc hd)
                (hs.objects c ss hc hd)).append
              (emits_quiet (s := c!"\n\n\n") (by decide)))) ?_ ?_
            · simp only [List.append_assoc]; rfl
            · simp
  obtain ⟨k1, k2, k3⟩ := key
  have all := emits_head.append ((emits_header (h := b.header) hs.header).append
    ((emits_quiet (s := dataTypesHead) (by decide +kernel)).append (k1.append
    ((emits_quiet (s := specTypesHead) (by decide +kernel)).append (k2.append
    ((emits_quiet (s := middle) (by decide +kernel)).append (k3.append
    (emits_quiet (s := pageEnd ++ c!"\n") (by decide +kernel)))))))))
  have e := all []
  rw [List.append_nil] at e
  have hn : elements [] = [] := by rw [elements]
  rw [hn, List.append_nil] at e
  simp only [List.append_assoc] at e ⊢
  rw [e]
  unfold pageCells contentCells
  match b.coreContent with
  | none => simp
  | some none => simp
  | some (some c) => simp

theorem nodeTables_ok {repr : Str → Str} {l : Lookup} : ∀ {hs : List Hierarchy},
    (∃ t, nodeTables repr l hs = .ok t) ↔
      ∀ h ∈ hs, ∃ r o, h.info.specObject = some r ∧ l.specObjects.get? r = some o
  | [] => by simp [nodeTables]
  | h :: hs => by
    have ih := nodeTables_ok (repr := repr) (l := l) (hs := hs)
    rw [List.forall_mem_cons, ← ih]
    rw [nodeTables]
    cases hr : h.info.specObject with
    | none => simp [objectOf]
    | some r =>
      cases ho : l.specObjects.get? r with
      | none => simp [objectOf, Lookup.specObjectByRef, Dict.getItem, ho, orKey]
      | some o =>
        cases hn : nodeTables repr l hs <;>
          simp [objectOf, Lookup.specObjectByRef, Dict.getItem, ho, orKey]

theorem specificationParts_ok {repr : Str → Str} {b : Bundle} {all : List Specification}
    (hall : b.specifications? = some all) :
    ∀ {i : Nat} {ss : List Specification}, (∀ k, ss[k]? = all[i + k]?) →
    ((∃ t, specificationParts repr b i ss = .ok t) ↔
      ∀ s ∈ ss, ∀ hs, s.children = some hs → ∀ h ∈ preorderList hs,
        ∃ r o, h.info.specObject = some r ∧ b.lookup.specObjects.get? r = some o)
  | _, [], _ => by simp [specificationParts]
  | i, s :: ss, hi => by
    have ih := specificationParts_ok (repr := repr) hall (i := i + 1) (ss := ss) (by
      intro k
      have := hi (k + 1)
      rw [List.getElem?_cons_succ] at this
      rw [this]
      congr 1
      omega)
    have hs : all[i]? = some s := by
      have := hi 0
      simpa using this.symm
    rw [List.forall_mem_cons, ← ih]
    rw [specificationParts]
    unfold Bundle.iterate
    rw [hall]
    dsimp only
    rw [hs]
    dsimp only
    cases hc : s.children with
    | none => cases specificationParts repr b (i + 1) ss <;> simp [nodeTables]
    | some cs =>
      dsimp only
      rw [iterLoop_eq]
      have hn := nodeTables_ok (repr := repr) (l := b.lookup) (hs := preorderList cs)
      have : (∀ hs, some cs = some hs → ∀ h ∈ preorderList hs,
          ∃ r o, h.info.specObject = some r ∧ b.lookup.specObjects.get? r = some o) ↔
          ∃ t, nodeTables repr b.lookup (preorderList cs) = .ok t := by
        rw [hn]
        constructor
        · intro h; exact h cs rfl
        · intro h hs' e; cases e; exact h
      rw [this]
      cases nodeTables repr b.lookup (preorderList cs) <;>
        cases specificationParts repr b (i + 1) ss <;> simp

/-- **C64**, when there is a page. -/
theorem C64_succeeds (repr : Str → Str) (b : Bundle) :
    (∃ page, dumpText repr b = .ok page) ↔ Dumpable b := by
  have e : (∃ page, dumpText repr b = .ok page) ↔
      (∃ x, dataTypesPart b.coreContent = .ok x) ∧ (∃ x, specTypesPart b.coreContent = .ok x) ∧
      ∃ x, specificationsPart repr b = .ok x := by
    unfold dumpText
    cases dataTypesPart b.coreContent with
    | error x => simp [bind, Except.bind]
    | ok x =>
      cases specTypesPart b.coreContent with
      | error y => simp [bind, Except.bind]
      | ok y =>
        cases specificationsPart repr b with
        | error z => simp [bind, Except.bind]
        | ok z => simp [bind, Except.bind, pure, Except.pure]
  rw [e]
  unfold Dumpable specificationsPart
  match hc : b.coreContent with
  | none => simp [dataTypesPart, specTypesPart]
  | some none => simp [dataTypesPart, specTypesPart]
  | some (some c) =>
    have hd : (∃ x, dataTypesPart (some (some c)) = .ok x) ↔ c.dataTypes ≠ none := by
      unfold dataTypesPart loopOver
      cases hh : c.dataTypes <;> simp [hh, bind, Except.bind, pure, Except.pure]
    have ht : (∃ x, specTypesPart (some (some c)) = .ok x) ↔ c.specTypes ≠ none := by
      unfold specTypesPart loopOver
      cases hh : c.specTypes <;> simp [hh, bind, Except.bind, pure, Except.pure]
    rw [hd, ht]
    have hone : ∀ P : Content → Prop, (∀ c', some (some c) = some (some c') → P c') ↔ P c := by
      intro P
      constructor
      · intro h; exact h c rfl
      · intro h c' e; cases e; exact h
    rw [hone]
    refine and_congr_right fun _ => and_congr_right fun _ => ?_
    dsimp only
    cases hss : c.specifications with
    | none => simp
    | some ss =>
      have hall : b.specifications? = some ss := by
        unfold Bundle.specifications?
        rw [hc]
        exact hss
      have hk := specificationParts_ok (repr := repr) hall (i := 0) (ss := ss) (by simp)
      have : (∃ ss', some ss = some ss' ∧ ∀ s ∈ ss', ∀ hs, s.children = some hs →
          ∀ h ∈ preorderList hs,
            ∃ r o, h.info.specObject = some r ∧ b.lookup.specObjects.get? r = some o) ↔
          ∃ t, specificationParts repr b 0 ss = .ok t := by
        rw [hk]
        constructor
        · rintro ⟨ss', e, h⟩; cases e; exact h
        · intro h; exact ⟨ss, rfl, h⟩
      rw [this]
      cases hq : specificationParts repr b 0 ss <;> simp [hq]

theorem nodeTables_error {repr : Str → Str} {l : Lookup} : ∀ {hs : List Hierarchy} {e : PyErr},
    nodeTables repr l hs = .error e → e = .keyError
  | [], _, h => by cases h
  | x :: hs, e, h => by
    rw [nodeTables] at h
    cases hr : objectOf l x.info.specObject with
    | error e' =>
      rw [hr] at h
      cases h
      unfold objectOf at hr
      split at hr
      · cases hr; rfl
      · unfold Lookup.specObjectByRef Dict.getItem orKey at hr
        split at hr
        · cases hr
        · cases hr; rfl
    | ok o =>
      rw [hr] at h
      dsimp only at h
      cases hn : nodeTables repr l hs with
      | error e' =>
        rw [hn] at h
        cases h
        exact nodeTables_error hn
      | ok t => rw [hn] at h; cases h

theorem specificationParts_error {repr : Str → Str} {b : Bundle} {all : List Specification}
    (hall : b.specifications? = some all) :
    ∀ {i : Nat} {ss : List Specification} {e : PyErr}, (∀ k, ss[k]? = all[i + k]?) →
    specificationParts repr b i ss = .error e → e = .keyError
  | _, [], _, _, h => by cases h
  | i, s :: ss, e, hi, h => by
    have hs : all[i]? = some s := by
      have := hi 0
      simpa using this.symm
    have hit : ∃ hs, b.iterate i = .ok hs := by
      unfold Bundle.iterate
      rw [hall]
      dsimp only
      rw [hs]
      dsimp only
      cases s.children <;> exact ⟨_, rfl⟩
    obtain ⟨hs', hit⟩ := hit
    rw [specificationParts, hit] at h
    dsimp only at h
    cases hn : nodeTables repr b.lookup hs' with
    | error e' => rw [hn] at h; cases h; exact nodeTables_error hn
    | ok t =>
      rw [hn] at h
      dsimp only at h
      cases hp : specificationParts repr b (i + 1) ss with
      | ok r => rw [hp] at h; cases h
      | error e' =>
        rw [hp] at h
        cases h
        refine specificationParts_error hall ?_ hp
        intro k
        have := hi (k + 1)
        rw [List.getElem?_cons_succ] at this
        rw [this]
        congr 1
        omega

/-- **C64**, when there is no page: `TypeError` if one of the three lists is not there, and
`KeyError` (for a node that refers to no object) if they are. -/
theorem C64_failure (repr : Str → Str) (b : Bundle) (e : PyErr) (h : dumpText repr b = .error e) :
    ∃ c, b.coreContent = some (some c) ∧
      e = if c.dataTypes = none ∨ c.specTypes = none ∨ c.specifications = none then .typeError else .keyError := by
  unfold dumpText specificationsPart at h
  match hc : b.coreContent with
  | none => rw [hc] at h; cases h
  | some none => rw [hc] at h; cases h
  | some (some c) =>
    refine ⟨c, rfl, ?_⟩
    rw [hc] at h
    unfold dataTypesPart specTypesPart loopOver at h
    dsimp only at h
    cases hd : c.dataTypes with
    | none => rw [hd] at h; cases h; simp
    | some ds =>
      rw [hd] at h
      cases ht : c.specTypes with
      | none => rw [ht] at h; cases h; simp
      | some ts =>
        rw [ht] at h
        cases hss : c.specifications with
        | none => rw [hss] at h; cases h; simp
        | some ss =>
          rw [hss] at h
          dsimp only [py_bind_ok, py_pure] at h
          cases hp : specificationParts repr b 0 ss with
          | ok t => rw [hp] at h; cases h
          | error e' =>
            rw [hp] at h
            cases h
            have hall : b.specifications? = some ss := by
              unfold Bundle.specifications?
              rw [hc]
              exact hss
            rw [specificationParts_error hall (by simp) hp]
            simp

/-- **C64**, after validation: if the validation of a file finds no node without object
and the three lists are there, the page is rendered. -/
theorem C64_validated (repr : Str → Str) {bytes : ByteArray} {s : Str} {b : Bundle}
    (hs : decodeUtf8 bytes = .ok s) (h : parseString (normEol s) = .ok b)
    {e : ErrorBundle} (hv : validateParsed (.ok bytes) = .ok e)
    (hn : ∀ n r, SemanticIssue.hierarchyRef n r ∉ e.semanticWarnings)
    (hl : ∀ c, b.coreContent = some (some c) →
      c.dataTypes ≠ none ∧ c.specTypes ≠ none ∧ c.specifications ≠ none) :
    ∃ page, dumpText repr b = .ok page := by
  rw [C64_succeeds]
  intro c hc
  obtain ⟨h1, h2, h3⟩ := hl c hc
  refine ⟨h1, h2, ?_⟩
  cases hss : c.specifications with
  | none => exact absurd hss h3
  | some ss =>
    refine ⟨ss, rfl, ?_⟩
    intro sp hsp hs' hch x hx
    obtain ⟨d, -, hd⟩ := C28_semantic_issues bytes s b hs h
    rw [hd] at hv
    cases hv
    have hnd : dangling (specObjectsOf b) x.info.specObject = false := by
      cases hdg : dangling (specObjectsOf b) x.info.specObject with
      | false => rfl
      | true =>
        refine absurd ?_ (hn x.info.xmlNode x.info.specObject)
        dsimp only
        unfold semanticIssues
        refine List.mem_append_right _ (List.mem_flatMap.mpr ⟨sp, ?_, ?_⟩)
        · unfold specificationsOf
          rw [hc]
          dsimp only
          rw [hss]
          exact hsp
        · unfold hierarchyRefs
          refine List.mem_map.mpr ⟨x, List.mem_filter.mpr ⟨?_, hdg⟩, rfl⟩
          rw [hch]
          exact hx
    have hex := danglingIff h x.info.specObject
    rw [hnd] at hex
    cases hr : x.info.specObject with
    | none => rw [hr] at hnd; cases hnd
    | some r =>
      rw [hr] at hex
      have hex' : (b.lookup.specObjects.get? r).isSome = true := hex
      obtain ⟨o, ho⟩ := Option.isSome_iff_exists.mp hex'
      exact ⟨r, o, rfl, ho⟩

/-- **C64**, the files: a run that succeeds changes exactly the output file, which then
holds the page of the parsed input; any other run changes nothing. -/
theorem C64_command (os : OsEnv) (repr : Str → Str) (input output : Str) (fs : Files) :
    (∃ src s b page, fs input = some src ∧ decodeUtf8 src = .ok s ∧ parseString (normEol s) = .ok b ∧
      dumpText repr b = .ok page ∧
      dumpCommand os repr input output fs = (.ok (), update fs output page.utf8Encode)) ∨
    ((∃ e, (dumpCommand os repr input output fs).1 = .error e) ∧
      (dumpCommand os repr input output fs).2 = fs) := by
  unfold dumpCommand
  cases hi : fs input with
  | none =>
    right
    have e : (parseFile (none : Option (Callback Unit)) (readFile fs input) ()).1 = .error .io := by
      unfold readFile
      rw [hi]
      rfl
    rw [e]
    exact ⟨⟨_, rfl⟩, rfl⟩
  | some src =>
    have hr : readFile fs input = .ok src := by simp [readFile, hi]
    rw [hr]
    cases hs : decodeUtf8 src with
    | error x =>
      right
      have e : (parseFile (none : Option (Callback Unit)) (.ok src) ()).1 = .error x := by
        unfold parseFile
        simp only [M.bind, M.lift, hs]
      rw [e]
      exact ⟨⟨_, rfl⟩, rfl⟩
    | ok s =>
      have e : (parseFile (none : Option (Callback Unit)) (.ok src) ()).1 = parseString (normEol s) := by
        unfold parseFile
        simp only [M.bind, M.lift, hs]
        rfl
      rw [e]
      cases hp : parseString (normEol s) with
      | error x => exact .inr ⟨⟨_, rfl⟩, rfl⟩
      | ok b =>
        dsimp only
        cases ht : dumpText repr b with
        | error x => exact .inr ⟨⟨_, rfl⟩, rfl⟩
        | ok page =>
          dsimp only
          unfold writeFile
          cases ho : os.openError output with
          | some x => exact .inr ⟨⟨_, rfl⟩, rfl⟩
          | none => exact .inl ⟨src, s, b, page, rfl, hs, hp, ht, rfl⟩

/-! ## Cases -/

/-- What becomes of a document, with a simple `repr`. -/
inductive DumpFate
  | unreadable
  | refused (e : PyErr)
  | page
  deriving DecidableEq

def dumpFate (text : Str) : DumpFate :=
  match parseString text with
  | .error _ => .unreadable
  | .ok b =>
    match dumpText (fun s => c!"'" ++ s ++ c!"'") b with
    | .error e => .refused e
    | .ok _ => .page

set_option maxRecDepth 20000 in
/-- The document with all kinds of items has a page. -/
example : dumpFate fullXsdDoc = .page := by decide +kernel

set_option maxRecDepth 20000 in
/-- What this page shows. -/
example : (match parseString fullXsdDoc with
    | .error _ => []
    | .ok b => (pageCells (fun s => c!"'" ++ s ++ c!"'") b).map (·.2)) =
    [c!"&lt;REQ-IF&gt;", c!"TITLE:", c!"T", c!"CREATION-TIME:", c!"2021-01-01T00:00:00",
     c!"TITLE:", c!"d1", c!"TITLE:", c!"d", c!"TITLE:", c!"o", c!"TITLE:", c!"t", c!"TITLE:", c!"s",
     c!"None",
     c!"&lt;SPEC-OBJECT&gt;", c!"&lt;SPEC-OBJECT-TYPE&gt;", c!"o", c!"IDENTIFIER", c!"q", c!"&lt;VALUES&gt;",
       c!"a", c!"['v']", c!"a", c!"<h:p>y<h:b/></h:p>", c!"a", c!"z",
     c!"&lt;SPEC-OBJECT&gt;", c!"&lt;SPEC-OBJECT-TYPE&gt;", c!"o", c!"IDENTIFIER", c!"q", c!"&lt;VALUES&gt;",
       c!"a", c!"['v']", c!"a", c!"<h:p>y<h:b/></h:p>", c!"a", c!"z"] := by
  decide +kernel

set_option maxRecDepth 20000 in
/-- A valid document without data types has no page: the loop over `None` raises. -/
theorem C64_no_data_types :
    fate (inObjects (el c!"VALUES" [] [])) = ((true, true, true), .printed) ∧
    dumpFate (inObjects (el c!"VALUES" [] [])) = .refused .typeError := by
  constructor <;> decide +kernel

set_option maxRecDepth 20000 in
/-- A node whose reference leads nowhere. -/
theorem C64_dangling : dumpFate (xsdDoc (el c!"DATATYPES" [] [] ++ el c!"SPEC-TYPES" [] [] ++
    el c!"SPECIFICATIONS" [] (el c!"SPECIFICATION" (ident c!"p") (el c!"TYPE" [] (el c!"SPECIFICATION-TYPE-REF" [] c!"s") ++
    el c!"CHILDREN" [] (el c!"SPEC-HIERARCHY" (ident c!"h1") (el c!"OBJECT" [] (el c!"SPEC-OBJECT-REF" [] c!"q"))))))) =
    .refused .keyError := by decide +kernel

/-- A bundle with one data type. -/
def dataTypeBundle (i : Str) : Bundle :=
  ⟨NamespaceInfo.createDefault, none,
    some (some ⟨some [⟨⟨i, none, none, none, true⟩, .boolean⟩], some [], none, none, some [], none⟩), false, Lookup.empty, []⟩

/-- An identifier is printed as it is: markup in it becomes markup of the page. -/
theorem C64_injection : ∃ page, dumpText id (dataTypeBundle c!"</td><script>x</script>") = .ok page ∧
    containsStr c!"<td></td><script>x</script></td>" page = true := by
  refine ⟨_, rfl, ?_⟩
  decide +kernel

/-- A bundle that meets the hypotheses of `C64_page`, and its page. -/
example : ∃ page, dumpText id (dataTypeBundle c!"d") = .ok page ∧
    elements page = [heading c!"&lt;REQ-IF&gt;", cell c!"TITLE:", cell c!"d"] := by
  obtain ⟨page, h⟩ := (C64_succeeds id (dataTypeBundle c!"d")).mpr (by
    intro c hc
    cases hc
    exact ⟨by simp, by simp, [], rfl, by simp⟩)
  refine ⟨page, h, C64_page h ⟨?_, ?_, ?_, ?_, ?_⟩⟩
  · intro x hx; cases hx
  · intro c ds hc hd
    cases hc
    cases hd
    decide
  · intro c ts hc ht
    cases hc
    cases ht
    simp
  · intro c ss hc hss
    cases hc
    cases hss
    simp
  · intro c ss hc hss
    cases hc
    cases hss
    simp

end ReqIF

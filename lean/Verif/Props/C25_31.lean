import Verif.Spec.Report
import Verif.Proofs.Lookup
import Verif.Props.C18_23
import Verif.Props.C08_12
import Verif.Props.C13_17
import Verif.Props.C24_26
/-!
# C25, C27-C29, C31: archives and validation
-/
namespace ReqIF
open Spec

/-! ## Names -/

theorem baseName_iff (p name : Str) : IsFileName p name ↔ name = baseName p := by
  unfold IsFileName baseName
  constructor
  · rintro ⟨hn, rfl | ⟨dir, rfl⟩⟩
    · have e := List.takeWhile_append_of_pos (p := fun c => c != '/') (l₁ := p.reverse) (l₂ := []) (by
        intro c hc
        simp only [bne_iff_ne, ne_eq]
        rintro rfl
        exact hn (List.mem_reverse.mp hc))
      simp only [List.append_nil, List.takeWhile_nil] at e
      rw [e, List.reverse_reverse]
    · have e : (dir ++ '/' :: name).reverse = name.reverse ++ '/' :: dir.reverse := by simp
      rw [e, List.takeWhile_append_of_pos]
      · simp
      · intro c hc
        simp only [bne_iff_ne, ne_eq]
        rintro rfl
        exact hn (List.mem_reverse.mp hc)
  · rintro rfl
    constructor
    · intro hm
      have := List.all_takeWhile (p := fun c => c != '/') (l := p.reverse)
      rw [List.all_eq_true] at this
      exact absurd (this _ (List.mem_reverse.mp hm)) (by decide)
    · have h := List.takeWhile_append_dropWhile (p := fun c => c != '/') (l := p.reverse)
      have hp : p = (p.reverse.dropWhile (fun c => c != '/')).reverse ++
          (p.reverse.takeWhile (fun c => c != '/')).reverse := by
        rw [← List.reverse_append, h, List.reverse_reverse]
      cases hd : p.reverse.dropWhile (fun c => c != '/') with
      | nil =>
        left
        rw [hd] at hp
        simpa using hp
      | cons x rest =>
        right
        have hx : x = '/' := by
          have := List.head?_dropWhile_not (p := fun c => c != '/') (l := p.reverse)
          rw [hd] at this
          simpa using this
        rw [hd, hx] at hp
        refine ⟨rest.reverse, ?_⟩
        simpa [List.append_assoc] using hp

theorem pathExtension_iff (p e : Str) (he : '.' ∉ e) :
    pathExtension p = '.' :: e ↔ HasExt p ('.' :: e) := by
  have hne : ∀ c ∈ e.reverse, (c != '.') = true := by
    intro c hc
    simp only [bne_iff_ne, ne_eq]
    rintro rfl
    exact he (List.mem_reverse.mp hc)
  unfold HasExt pathExtension
  simp only [baseName_iff]
  constructor
  · intro h
    split at h
    · cases h
    · rename_i x before hd
      split at h
      · rename_i ha
        simp only [List.cons.injEq, true_and] at h
        refine ⟨_, before.reverse, rfl, ?_, ?_⟩
        · have hx : x = '.' := by
            have := List.head?_dropWhile_not (p := fun c => c != '.') (l := (baseName p).reverse)
            rw [hd] at this
            simpa using this
          have hh := List.takeWhile_append_dropWhile (p := fun c => c != '.') (l := (baseName p).reverse)
          rw [hd, hx] at hh
          have := congrArg List.reverse hh
          rw [List.reverse_reverse] at this
          rw [← this, List.reverse_append, h]
          simp
        · simp only [List.any_eq_true, bne_iff_ne, ne_eq] at ha
          obtain ⟨c, hc, h1⟩ := ha
          exact ⟨c, List.mem_reverse.mpr hc, h1⟩
      · cases h
  · rintro ⟨name, stem, rfl, hname, c, hc, hne'⟩
    rw [hname]
    have e1 : (stem ++ '.' :: e).reverse = e.reverse ++ '.' :: stem.reverse := by simp
    rw [e1, List.dropWhile_append_of_pos hne, List.takeWhile_append_of_pos hne]
    have e2 : List.dropWhile (fun c => c != '.') ('.' :: stem.reverse) = '.' :: stem.reverse := rfl
    have e3 : List.takeWhile (fun c => c != '.') ('.' :: stem.reverse) = [] := rfl
    rw [e2, e3]
    dsimp only
    rw [if_pos]
    · simp
    · simp only [List.any_eq_true, bne_iff_ne, ne_eq]
      exact ⟨c, List.mem_reverse.mpr hc, hne'⟩

/-- **C31**, names: a member is treated as ReqIF exactly when its file name has the
extension `.reqif` or `.xml`. -/
theorem C31_names (p : Str) : isReqifName p = true ↔ ReqifMember p := by
  unfold isReqifName ReqifMember
  rw [Bool.or_eq_true, beq_iff_eq, beq_iff_eq, pathExtension_iff p _ (by decide), pathExtension_iff p _ (by decide)]

/-! ## Reading members -/

theorem readMember_aux (ar : Archive) (name : Str) (q : Str × Py ByteArray → Bool)
    (hq : ∀ m : Str × Py ByteArray, q m = true ↔ m.1 = name) :
    readMember ar name = match ((ar.filter q).getLast?).map (·.2) with
      | none => .error .keyError
      | some r => r := by
  induction ar with
  | nil => rfl
  | cons m ar ih =>
    obtain ⟨n, r⟩ := m
    unfold readMember
    by_cases h : n = name
    · subst h
      rw [if_pos rfl, List.filter_cons_of_pos ((hq _).mpr rfl)]
      by_cases hc : (ar.map (·.1)).contains n = true
      · rw [if_pos hc, ih]
        have : ar.filter q ≠ [] := by
          intro he
          simp only [List.contains_eq_mem, List.mem_map, decide_eq_true_eq] at hc
          obtain ⟨m, hm, hn⟩ := hc
          have := List.mem_filter.mpr ⟨hm, (hq m).mpr hn⟩
          rw [he] at this
          cases this
        rw [List.getLast?_cons, List.getLast?_eq_some_getLast this]
        rfl
      · rw [if_neg hc]
        have : ar.filter q = [] := by
          rw [List.filter_eq_nil_iff]
          intro m hm hb
          apply hc
          simp only [List.contains_eq_mem, List.mem_map, decide_eq_true_eq]
          exact ⟨m, hm, (hq m).mp hb⟩
        rw [this]
        rfl
    · rw [if_neg h, ih, List.filter_cons_of_neg (fun hb => h ((hq (n, r)).mp hb))]

theorem readMember_eq (ar : Archive) (name : Str) :
    readMember ar name = match memberContent ar name with
      | none => .error .keyError
      | some r => r :=
  readMember_aux ar name _ (fun _ => decide_eq_true_iff)

theorem membersLoop_none {σ : Type} (ar : Archive) (total k : Nat) (acc : ZBundle) (names : List Str) (s : σ) :
    membersLoop none ar total k acc names s = (foldPy (memberStep ar) acc names, s) := by
  induction names generalizing k acc with
  | nil => rfl
  | cons n ns ih =>
    unfold membersLoop foldPy
    simp only [M.bind, M.lift]
    cases memberStep ar acc n with
    | error e => rfl
    | ok acc' => exact ih (k + 1) acc'

/-- The outcome of one member does not depend on the ones before. -/
theorem memberStep_ok_iff (ar : Archive) (acc : ZBundle) (name : Str) :
    (∃ z, memberStep ar acc name = .ok z) ↔ MemberLoads ar name := by
  unfold memberStep MemberLoads
  rw [readMember_eq]
  cases hm : memberContent ar name with
  | none =>
    constructor
    · rintro ⟨z, h⟩; cases h
    · rintro ⟨bytes, h, -⟩; cases h
  | some r =>
    cases r with
    | error e =>
      constructor
      · rintro ⟨z, h⟩; cases h
      · rintro ⟨bytes, h, -⟩; cases h
    | ok bytes =>
      dsimp only
      have hn := C31_names name
      cases hr : isReqifName name with
      | false =>
        rw [hr] at hn
        constructor
        · intro _
          exact ⟨bytes, rfl, fun h => absurd (hn.mpr h) (by decide)⟩
        · intro _
          rw [if_neg (by decide)]
          exact ⟨_, rfl⟩
      | true =>
        rw [hr] at hn
        rw [if_pos rfl]
        have hq := hn.mp rfl
        constructor
        · rintro ⟨z, h⟩
          refine ⟨bytes, rfl, fun _ => ?_⟩
          unfold LoadsAs
          split at h
          · cases h
          · rename_i text ht
            split at h
            · cases h
            · rename_i b hb
              exact ⟨b, text, ht, hb⟩
        · rintro ⟨bytes', hb, h⟩
          cases hb
          obtain ⟨b, text, ht, hp⟩ := h hq
          rw [ht]
          dsimp only
          rw [hp]
          exact ⟨_, rfl⟩

theorem foldPy_members_ok (ar : Archive) (names : List Str) (acc : ZBundle) :
    (∃ z, foldPy (memberStep ar) acc names = .ok z) ↔ ∀ n ∈ names, MemberLoads ar n := by
  induction names generalizing acc with
  | nil => simp [foldPy]
  | cons n ns ih =>
    unfold foldPy
    have h := memberStep_ok_iff ar acc n
    cases hs : memberStep ar acc n with
    | error e =>
      rw [hs] at h
      dsimp only
      constructor
      · rintro ⟨z, hz⟩; cases hz
      · intro hall
        obtain ⟨z, hz⟩ := h.mpr (hall n (by simp))
        cases hz
    | ok acc' =>
      rw [hs] at h
      dsimp only
      rw [ih acc']
      have hn := h.mp ⟨_, rfl⟩
      simp [hn]

/-- **C25.** For every callback, reading an archive gives a bundle or `ReqIFZParsingError`. -/
theorem C25_only_reqifz {σ : Type} (progress : Option (Callback σ)) (opened : Py Archive) (s : σ) :
    (∃ z, (parseZ progress opened s).1 = .ok z) ∨ (parseZ progress opened s).1 = .error .reqifz := by
  unfold parseZ wrapZ
  split
  · exact Or.inl ⟨_, rfl⟩
  · exact Or.inr rfl

/-- **C25.** Without a callback, or with one that does not raise, it fails exactly when
the archive cannot be opened or some member cannot be read, or is named as ReqIF
and cannot be decoded or parsed. -/
theorem C25_fails_iff {σ : Type} (progress : Option (Callback σ)) (hp : ∀ p, progress = some p → NonRaising p)
    (opened : Py Archive) (s : σ) :
    (parseZ progress opened s).1 = .error .reqifz ↔
      (∃ e, opened = .error e) ∨ ∃ ar, opened = .ok ar ∧ ∃ m ∈ ar, ¬ MemberLoads ar m.1 := by
  have key : (parseZ (none : Option (Callback σ)) opened s).1 = .error .reqifz ↔
      (∃ e, opened = .error e) ∨ ∃ ar, opened = .ok ar ∧ ∃ m ∈ ar, ¬ MemberLoads ar m.1 := by
    cases opened with
    | error e =>
      refine ⟨fun _ => Or.inl ⟨e, rfl⟩, fun _ => rfl⟩
    | ok ar =>
      have h := foldPy_members_ok ar (ar.map (·.1)) ⟨[], []⟩
      unfold parseZ wrapZ
      simp only [M.bind, M.lift, membersLoop_none]
      cases hf : foldPy (memberStep ar) ⟨[], []⟩ (ar.map (·.1)) with
      | ok z =>
        rw [hf] at h
        dsimp only
        have hall := h.mp ⟨z, rfl⟩
        constructor
        · intro hc; cases hc
        · rintro (⟨e, he⟩ | ⟨ar', he, m, hm, hn⟩)
          · cases he
          · cases he
            exact absurd (hall m.1 (List.mem_map.mpr ⟨m, hm, rfl⟩)) hn
      | error e =>
        rw [hf] at h
        dsimp only
        refine ⟨fun _ => Or.inr ⟨ar, rfl, ?_⟩, fun _ => rfl⟩
        refine Classical.byContradiction fun hc => ?_
        obtain ⟨z, hz⟩ := h.mpr (by
          intro n hn
          obtain ⟨m, hm, rfl⟩ := List.mem_map.mp hn
          exact Classical.byContradiction fun hb => hc ⟨m, hm, hb⟩)
        cases hz
  cases progress with
  | none => exact key
  | some p => rw [(C09_transparent p (hp p rfl) s s).2.2.1 opened]; exact key

/-- What a successful run of the loop leaves in the two dictionaries. -/
theorem foldPy_members_get (ar : Archive) (names : List Str) (acc z : ZBundle)
    (h : foldPy (memberStep ar) acc names = .ok z) (n : Str) :
    (n ∈ names → ∃ bytes, memberContent ar n = some (.ok bytes) ∧
      (ReqifMember n → ∃ b, LoadsAs bytes b ∧ z.reqifBundles.get? n = some b ∧
        z.attachments.get? n = acc.attachments.get? n) ∧
      (¬ ReqifMember n → z.attachments.get? n = some bytes ∧
        z.reqifBundles.get? n = acc.reqifBundles.get? n)) ∧
    (n ∉ names → z.reqifBundles.get? n = acc.reqifBundles.get? n ∧
      z.attachments.get? n = acc.attachments.get? n) := by
  induction names generalizing acc with
  | nil => cases h; exact ⟨fun h => (by cases h), fun _ => ⟨rfl, rfl⟩⟩
  | cons m ms ih =>
    unfold foldPy at h
    split at h
    · cases h
    · rename_i acc' hs
      obtain ⟨ih1, ih2⟩ := ih acc' h
      -- what the step did
      have hstep : ∃ bytes, memberContent ar m = some (.ok bytes) ∧
          (ReqifMember m → ∃ b, LoadsAs bytes b ∧
            acc' = { acc with reqifBundles := acc.reqifBundles.set m b }) ∧
          (¬ ReqifMember m → acc' = { acc with attachments := acc.attachments.set m bytes }) := by
        unfold memberStep at hs
        rw [readMember_eq] at hs
        cases hm : memberContent ar m with
        | none => rw [hm] at hs; cases hs
        | some r =>
          rw [hm] at hs
          cases r with
          | error e => cases hs
          | ok bytes =>
            dsimp only at hs
            refine ⟨bytes, rfl, ?_, ?_⟩
            · intro hr
              rw [if_pos ((C31_names m).mpr hr)] at hs
              split at hs
              · cases hs
              · rename_i text ht
                split at hs
                · cases hs
                · rename_i b hb
                  cases hs
                  exact ⟨b, ⟨text, ht, hb⟩, rfl⟩
            · intro hr
              rw [if_neg (fun hc => hr ((C31_names m).mp hc))] at hs
              cases hs
              rfl
      obtain ⟨bytes, hb, h1, h2⟩ := hstep
      -- get of the accumulator at other keys
      have hother : ∀ k, k ≠ m → acc'.reqifBundles.get? k = acc.reqifBundles.get? k ∧
          acc'.attachments.get? k = acc.attachments.get? k := by
        intro k hk
        by_cases hr : ReqifMember m
        · obtain ⟨b, -, rfl⟩ := h1 hr
          exact ⟨by simp [Dict.get?_set, Ne.symm hk], rfl⟩
        · rw [h2 hr]
          exact ⟨rfl, by simp [Dict.get?_set, Ne.symm hk]⟩
      refine ⟨?_, ?_⟩
      · intro hn
        by_cases hmem : n ∈ ms
        · obtain ⟨bytes', hb', g1, g2⟩ := ih1 hmem
          refine ⟨bytes', hb', ?_, ?_⟩
          · intro hr
            obtain ⟨b, hl, e1, e2⟩ := g1 hr
            refine ⟨b, hl, e1, ?_⟩
            rw [e2]
            by_cases hnm : n = m
            · subst hnm
              obtain ⟨b', -, rfl⟩ := h1 hr
              rfl
            · exact (hother n hnm).2
          · intro hr
            obtain ⟨e1, e2⟩ := g2 hr
            refine ⟨e1, ?_⟩
            rw [e2]
            by_cases hnm : n = m
            · subst hnm; rw [h2 hr]
            · exact (hother n hnm).1
        · have hnm : n = m := by
            rcases List.mem_cons.mp hn with h | h
            · exact h
            · exact absurd h hmem
          subst hnm
          obtain ⟨e1, e2⟩ := ih2 hmem
          refine ⟨bytes, hb, ?_, ?_⟩
          · intro hr
            obtain ⟨b, hl, rfl⟩ := h1 hr
            exact ⟨b, hl, by rw [e1]; simp [Dict.get?_set], by rw [e2]⟩
          · intro hr
            rw [h2 hr] at e1 e2
            exact ⟨by rw [e2]; simp [Dict.get?_set], by rw [e1]⟩
      · intro hn
        simp only [List.mem_cons, not_or] at hn
        obtain ⟨e1, e2⟩ := ih2 hn.2
        obtain ⟨g1, g2⟩ := hother n hn.1
        exact ⟨e1.trans g1, e2.trans g2⟩

/-- **C31.** After reading an archive, a member with a ReqIF name is a bundle, the parse
of its content, and nothing else; any other member is an attachment with its bytes
unchanged; a name that is no member is neither. -/
theorem C31_members {σ : Type} (ar : Archive) (s : σ) (z : ZBundle)
    (h : (parseZ (none : Option (Callback σ)) (.ok ar) s).1 = .ok z) (n : Str) :
    (n ∈ ar.map (·.1) → ∃ bytes, memberContent ar n = some (.ok bytes) ∧
      (ReqifMember n → ∃ b, LoadsAs bytes b ∧ z.reqifBundles.get? n = some b ∧ z.attachments.get? n = none) ∧
      (¬ ReqifMember n → z.attachments.get? n = some bytes ∧ z.reqifBundles.get? n = none)) ∧
    (n ∉ ar.map (·.1) → z.reqifBundles.get? n = none ∧ z.attachments.get? n = none) := by
  unfold parseZ wrapZ at h
  simp only [M.bind, M.lift, membersLoop_none] at h
  cases hf : foldPy (memberStep ar) ⟨[], []⟩ (ar.map (·.1)) with
  | error e => rw [hf] at h; cases h
  | ok z' =>
    rw [hf] at h
    cases h
    exact foldPy_members_get ar _ _ _ hf n

/-- Non-vacuity: both kinds of members, a directory, a hidden file and an upper-case
extension. -/
example : [c!"a.reqif", c!"d/b.xml", c!"d/", c!".reqif", c!"d/..xml", c!"x.REQIF", c!"a.reqif/b", c!"a.b.reqif"].map isReqifName
    = [true, true, false, false, false, false, false, true] := by decide +kernel

example : MemberLoads [(c!"i.png", .ok ⟨#[1, 255]⟩)] c!"i.png" := by
  rw [← memberStep_ok_iff _ ⟨[], []⟩]
  exact ⟨_, rfl⟩

/-! ## C27 -/

/-- **C27.** The report ends with the sizes of the three lists; the exit code is 0
exactly when all three are empty, and 1 otherwise. -/
theorem C27_exit_code (m : Messages) (isFile useSchema : Bool) (env : SchemaEnv) (root : Str) (read : Py ByteArray)
    (cwd cwd' : Str) (r : ValidateReport)
    (h : validateCommand m isFile useSchema env root read cwd = (.ok (.done r), cwd')) :
    ∃ e cwd'', validate useSchema env root read cwd = (.ok e, cwd'') ∧
      (∃ issues, r.lines = issues ++ closingLines e.xmlErrors.length e.schemaErrors.length
        e.semanticWarnings.length useSchema ∧
        issues.length = e.xmlErrors.length + e.schemaErrors.length + e.semanticWarnings.length) ∧
      (r.exitCode = 0 ↔ e.xmlErrors = [] ∧ e.schemaErrors = [] ∧ e.semanticWarnings = []) ∧
      (r.exitCode ≠ 0 → r.exitCode = 1) := by
  unfold validateCommand at h
  split at h
  · cases h
  · obtain ⟨e, s1, h1, h2⟩ := M.bind_inv h
    obtain ⟨r', s2, h3, h4⟩ := M.bind_inv h2
    simp only [M.pure, Prod.mk.injEq, Except.ok.injEq, ValidateOutcome.done.injEq] at h4
    simp only [M.lift, Prod.mk.injEq] at h3
    obtain ⟨h3, -⟩ := h3
    obtain ⟨rfl, -⟩ := h4
    refine ⟨e, s1, h1, ?_⟩
    unfold reportOf at h3
    split at h3
    · cases h3
    · rename_i schema hsc
      split at h3
      · cases h3
      · rename_i semantic hse
        cases h3
        refine ⟨⟨_, (List.append_assoc _ _ _).trans (congrArg _ ?_), ?_⟩, ?_, ?_⟩
        · unfold closingLines summaryLine noteLine
          cases useSchema <;> simp only [List.append_assoc] <;> rfl
        · simp only [List.length_append, List.length_map]
          rw [mapPy_length hsc, mapPy_length hse]
        · dsimp only
          unfold ErrorBundle.hasAnyErrors
          cases e.xmlErrors <;> cases e.schemaErrors <;> cases e.semanticWarnings <;> simp
        · dsimp only
          split <;> simp

/-- **C27**, a missing input file: no report. -/
theorem C27_no_input (m : Messages) (useSchema : Bool) (env : SchemaEnv) (root : Str) (read : Py ByteArray) (cwd : Str) :
    validateCommand m false useSchema env root read cwd = (.ok .noInput, cwd) := rfl

/-! ## C28 -/

theorem danglingIff {text : Str} {b : Bundle} (h : parseString text = .ok b) (ref : Option Str) :
    b.lookup.specObjectExists ref = !dangling (specObjectsOf b) ref := by
  cases ref with
  | none => rfl
  | some r =>
    rw [Bool.eq_iff_iff, (C18_spec_objects text b h r).1]
    simp [dangling]

theorem validateRelations_eq {text : Str} {b : Bundle} (h : parseString text = .ok b) (rs : List SpecRelation) :
    validateRelations b.lookup rs = rs.flatMap (relationEnds (specObjectsOf b)) := by
  induction rs with
  | nil => rfl
  | cons r rs ih =>
    simp only [validateRelations, ih, List.flatMap_cons, relationIssues, relationEnds, danglingIff h]
    cases dangling (specObjectsOf b) r.source <;> cases dangling (specObjectsOf b) r.target <;> rfl

theorem hierarchyIssues_eq {text : Str} {b : Bundle} (h : parseString text = .ok b) (hs : List Hierarchy) :
    hierarchyIssues b.lookup hs = (hs.filter (fun h => dangling (specObjectsOf b) h.info.specObject)).map
      (fun h => SemanticIssue.hierarchyRef h.info.xmlNode h.info.specObject) := by
  induction hs with
  | nil => rfl
  | cons x hs ih =>
    unfold hierarchyIssues
    rw [danglingIff h, ih, List.filter_cons]
    cases dangling (specObjectsOf b) x.info.specObject <;> rfl

theorem validateSpecifications_eq {text : Str} {b : Bundle} (h : parseString text = .ok b) (ss : List Specification)
    (hss : b.specifications? = some ss) (i : Nat) (rest : List Specification) (hr : ss.drop i = rest) :
    validateSpecificationsFrom b i rest = .ok (rest.flatMap (hierarchyRefs (specObjectsOf b))) := by
  induction rest generalizing i with
  | nil => rfl
  | cons s rest ih =>
    have hi : ss[i]? = some s := by
      have := congrArg (fun l => l[0]?) hr
      simpa using this
    have hd : ss.drop (i + 1) = rest := by
      have := congrArg (fun l => l.drop 1) hr
      simpa using this
    unfold validateSpecificationsFrom
    rw [C13_preorder b i ss s hss hi]
    dsimp only
    rw [ih (i + 1) hd, hierarchyIssues_eq h]
    rfl

/-- The document a bundle was parsed from. -/
theorem parseString_doc {text : Str} {b : Bundle} (h : parseString text = .ok b) :
    ∃ d, readDoc text = some d ∧
      (d.root.children = [] → b.namespaceInfo = NamespaceInfo.empty (NsMap.get? d.root.nsmap none)
        (NsMap.get? d.root.nsmap (some c!"configuration"))) ∧
      (d.root.children ≠ [] → ∃ r, b.namespaceInfo = namespaceInfoOf d r) := by
  unfold parseString parseFromString at h
  split at h
  · cases h
  · cases hd : readDoc text with
    | none => rw [hd] at h; cases h
    | some d =>
      rw [hd] at h
      dsimp only at h
      refine ⟨d, rfl, ?_⟩
      have h' : ∃ s, parseReqif (none : Option (Callback Unit)) d () = (.ok b, s) := ⟨_, by rw [← h]⟩
      obtain ⟨s, h'⟩ := h'
      obtain ⟨root, s1, h1, h2⟩ := M.bind_inv h'
      simp only [M.lift, Prod.mk.injEq] at h1
      have hlen := strippedRoot_len h1.1 (readDoc_root hd)
      split at h2
      · split at h2
        · rename_i hl
          simp only [M.pure, Prod.mk.injEq, Except.ok.injEq] at h2
          refine ⟨fun _ => by rw [← h2.1]; rfl, fun hne => absurd ?_ hne⟩
          rw [hl] at hlen
          exact List.length_eq_zero_iff.mp hlen.symm
        · rename_i hl
          obtain ⟨hdr, s2, h3, h4⟩ := M.bind_inv h2
          obtain ⟨core, s3, h5, h6⟩ := M.bind_inv h4
          simp only [M.pure, Prod.mk.injEq, Except.ok.injEq] at h6
          refine ⟨fun he => absurd ?_ hl, fun _ => ⟨root, by rw [← h6.1]⟩⟩
          rw [hlen]
          unfold Node.len
          rw [he]; rfl
      · simp only [M.lift, Prod.mk.injEq, reduceCtorEq, false_and] at h2

/-- **C28.** For every document that parses, the semantic issues are exactly those of the
specification, in that order, and the schema issues are the relations with a missing end. -/
theorem C28_semantic_issues (bytes : ByteArray) (s : Str) (b : Bundle) (hs : decodeUtf8 bytes = .ok s)
    (h : parseString (normEol s) = .ok b) :
    ∃ d, readDoc (normEol s) = some d ∧
      validateParsed (.ok bytes) = .ok ⟨[], b.exceptions.map .missingTag, semanticIssues d b⟩ := by
  obtain ⟨d, hd, h1, h2⟩ := parseString_doc h
  refine ⟨d, hd, ?_⟩
  have hp : (parseFile (none : Option (Callback Unit)) (.ok bytes) ()).1 = .ok b := by
    unfold parseFile
    simp only [M.bind, M.lift, hs]
    exact h
  unfold validateParsed
  rw [hp]
  dsimp only
  have hc : contentIssues b = .ok ((specRelationsOf b).flatMap (relationEnds (specObjectsOf b)) ++
      (specificationsOf b).flatMap (hierarchyRefs (specObjectsOf b))) := by
    have hrel := validateRelations_eq h
    have hspec := validateSpecifications_eq h
    unfold contentIssues specRelationsOf specificationsOf
    unfold Bundle.specifications? at hspec
    revert hrel hspec
    generalize specObjectsOf b = objs
    intro hrel hspec
    match hcc : b.coreContent with
    | none => rfl
    | some none => rfl
    | some (some c) =>
      rw [hcc] at hspec
      dsimp only at hspec ⊢
      cases hsp : c.specifications with
      | none => cases c.specRelations with
        | none => rfl
        | some rs => simp [hrel]
      | some ss =>
        have := hspec ss hsp 0 ss rfl
        dsimp only
        rw [this]
        cases c.specRelations with
        | none => rfl
        | some rs => simp [hrel]
  unfold validateBundle
  rw [hc]
  dsimp only
  unfold semanticIssues fileIssues
  by_cases hch : d.root.children = []
  · rw [h1 hch, if_pos hch]
    rfl
  · obtain ⟨r, hr⟩ := h2 hch
    rw [hr, if_neg hch]
    unfold namespaceInfoOf
    dsimp only
    congr 2
    simp only [List.append_assoc]
    congr 1
    · cases d.decl <;> rfl
    · congr 1
      by_cases he : (d.decl.bind (·.encoding)).getD c!"UTF-8" = c!"UTF-8"
      · rw [if_pos he, he]; rfl
      · rw [if_neg he]
        simp only [bne_iff_ne, ne_eq, he, not_false_eq_true, if_true]

set_option maxRecDepth 20000 in
/-- Non-vacuity: no declaration, a relation with both ends dangling, a hierarchy node that
refers to an object and one that refers to nothing. -/
def danglingDoc : Str :=
  c!"<REQ-IF><CORE-CONTENT><REQ-IF-CONTENT><SPECIFICATIONS><SPECIFICATION IDENTIFIER=\"S\"><CHILDREN><SPEC-HIERARCHY IDENTIFIER=\"h\"><OBJECT><SPEC-OBJECT-REF>1</SPEC-OBJECT-REF></OBJECT></SPEC-HIERARCHY><SPEC-HIERARCHY IDENTIFIER=\"g\"><OBJECT><SPEC-OBJECT-REF>2</SPEC-OBJECT-REF></OBJECT></SPEC-HIERARCHY></CHILDREN></SPECIFICATION></SPECIFICATIONS><SPEC-RELATIONS><SPEC-RELATION IDENTIFIER=\"r\"><TYPE><SPEC-RELATION-TYPE-REF>t</SPEC-RELATION-TYPE-REF></TYPE><SOURCE><SPEC-OBJECT-REF>3</SPEC-OBJECT-REF></SOURCE><TARGET><SPEC-OBJECT-REF>4</SPEC-OBJECT-REF></TARGET></SPEC-RELATION></SPEC-RELATIONS><SPEC-OBJECTS><SPEC-OBJECT IDENTIFIER=\"1\"><TYPE><SPEC-OBJECT-TYPE-REF>t</SPEC-OBJECT-TYPE-REF></TYPE></SPEC-OBJECT></SPEC-OBJECTS></REQ-IF-CONTENT></CORE-CONTENT></REQ-IF>"

set_option maxRecDepth 20000 in
example : (match parseString danglingDoc, readDoc danglingDoc with
    | .ok b, some d => (semanticIssues d b).map (fun
        | .noXmlDeclaration => c!"decl"
        | .notUtf8 => c!"enc"
        | .relationEnd _ t r => t ++ fmtOpt r
        | .hierarchyRef _ r => fmtOpt r)
    | _, _ => []) = [c!"decl", c!"SOURCE3", c!"TARGET4", c!"2"] := by decide +kernel

/-! ## C29 -/

/-- **C29.** However the schema validation ends, the working directory afterwards is the
one before, unless changing back to it fails, and that failure is raised. -/
theorem C29_restored (env : SchemaEnv) (root : Str) (cwd : Str) :
    (strictCheck env root cwd).2 = cwd ∨
      ∃ e, env.chdirError cwd = some e ∧ (strictCheck env root cwd).1 = .error e := by
  unfold strictCheck
  split
  · exact Or.inl rfl
  · unfold tryFinally
    split
    rename_i r s' _
    unfold chdir
    cases h : env.chdirError cwd with
    | none => exact Or.inl rfl
    | some e => exact Or.inr ⟨e, rfl, rfl⟩

/-- **C29**, the whole command. -/
theorem C29_command (m : Messages) (isFile useSchema : Bool) (env : SchemaEnv) (root : Str) (read : Py ByteArray) (cwd : Str)
    (hback : env.chdirError cwd = none) :
    (validateCommand m isFile useSchema env root read cwd).2 = cwd := by
  have hs : (strictCheck env root cwd).2 = cwd := by
    rcases C29_restored env root cwd with h | ⟨e, he, -⟩
    · exact h
    · rw [hback] at he; cases he
  have hv : (validate useSchema env root read cwd).2 = cwd := by
    unfold validate
    split
    · unfold M.bind
      split
      · rename_i v s' heq
        rw [heq] at hs
        dsimp only at hs
        subst hs
        cases v <;> rfl
      · rename_i e s' heq
        rw [heq] at hs
        exact hs
    · rfl
  unfold validateCommand
  split
  · rfl
  · unfold M.bind
    split
    · rename_i e s' heq
      rw [heq] at hv
      dsimp only at hv
      subst hv
      simp only [M.lift]
      cases reportOf m useSchema e <;> rfl
    · rename_i e s' heq
      rw [heq] at hv
      exact hv

/-- Non-vacuity: a check that moves elsewhere and raises. -/
example : let env : SchemaEnv := ⟨none, fun _ => none, fun _ => (.error (.other 1), c!"/tmp")⟩
    (strictCheck env c!"/x" c!"/home").2 = c!"/home" ∧ errOf (strictCheck env c!"/x" c!"/home").1 = some (.other 1) := by
  decide +kernel

end ReqIF

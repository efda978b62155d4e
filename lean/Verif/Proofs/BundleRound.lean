import Verif.Proofs.BundleTools
import Verif.Model.Commands
import Verif.Props.C52_55
/-!
# Whole bundles: printing and reading back
-/
namespace ReqIF
open Spec

theorem header_part (Γ : Ctx) {hdr : Option Header} (h : ∀ x, hdr = some x → SafeHeader x) :
    ∃ (t : Option Str) (o : Option Node), optPy unparseHeader hdr = .ok t ∧ Shows Γ false (t.getD []) o.toList ∧
      (∀ n ∈ o.toList, n.tag = .name c!"THE-HEADER") ∧ o.isSome = hdr.isSome ∧ optPy parseHeader o = .ok (hdr.map readHeader) ∧
      o.toList.map Xsd.said = (hdr.map Xsd.headerSaid).toList := by
  cases hdr with
  | none => exact ⟨none, none, rfl, Shows.nil Γ, by simp, rfl, rfl, rfl⟩
  | some x =>
    obtain ⟨t, n, h1, h2, h3, h4, h5⟩ := header_shows Γ (h x rfl)
    refine ⟨some t, some n, ?_, h2, ?_, rfl, ?_, congrArg (fun s => [s]) h5⟩
    · unfold optPy; dsimp only; rw [h1]
    · intro m hm
      have : m = n := by simpa using hm
      rw [this]; exact h3
    · unfold optPy; dsimp only; rw [h4]; rfl

theorem core_part {Γ : Ctx} (hc : Γ.Clean) {core : Option (Option Content)} (h : ∀ c, core = some (some c) → SafeContent Γ c) :
    ∃ (t : Str) (o : Option Node) (core' : Option (Option Content)), unparseCore (none : Option (Callback Unit)) core () = (.ok t, ()) ∧
      Shows Γ (coreUses core) t o.toList ∧
      (∀ n ∈ o.toList, n.tag = .name c!"CORE-CONTENT") ∧ o.isSome = core.isSome ∧
      (∀ root : Node, root.find c!"CORE-CONTENT" = o →
        parseCore (none : Option (Callback Unit)) root () = (.ok (core', lookupFor core', []), ())) ∧
      core'.map (·.map bareContent) = core.map (·.map readContent) ∧
      unparseCore (none : Option (Callback Unit)) core' () = (.ok t, ()) ∧ o.toList.map Xsd.said = Xsd.coreSaid Γ.pfx core := by
  cases core with
  | none =>
    refine ⟨[], none, none, rfl, Shows.nil Γ, by simp, rfl, ?_, rfl, rfl, rfl⟩
    intro root hr
    unfold parseCore
    rw [hr]
    rfl
  | some oc =>
    cases oc with
    | none =>
      obtain ⟨n, n1, -, n2⟩ := Shows.block 2 (tag := c!"CORE-CONTENT") (by decide) (Shows.nil Γ)
      rw [List.append_nil] at n2
      refine ⟨_, some n, some none, rfl, n2, ?_, rfl, ?_, rfl, rfl, congrArg (fun s => [s]) (n1.saysRecord (by decide))⟩
      · intro m hm
        have : m = n := by simpa using hm
        rw [this]; exact n1.tag
      · intro root hr
        have e : n.find c!"REQ-IF-CONTENT" = none := by rw [find_eq, n1.children]; rfl
        unfold parseCore
        rw [hr]
        dsimp only
        rw [e]
        rfl
    | some c =>
      obtain ⟨t, x, c', h1, h2, h3, h4, h5, h6, h7⟩ := content_survives hc (h c rfl)
      obtain ⟨n, n1, -, n2⟩ := Shows.block 2 (tag := c!"CORE-CONTENT") (by decide) h2
      refine ⟨_, some n, some (some c'), ?_, n2, ?_, rfl, ?_, ?_, ?_, (by
        show [Xsd.said n] = _
        rw [n1.saysRecord (by decide), List.map_cons, List.map_nil, h7]
        rfl)⟩
      · exact M.bind_ok h1
      · intro m hm
        have : m = n := by simpa using hm
        rw [this]; exact n1.tag
      · intro root hr
        have e := find_one n1 h3
        unfold parseCore
        rw [hr]
        dsimp only
        rw [e]
        exact M.bind_ok h4
      · simp [h5]
      · exact M.bind_ok h6

theorem tool_part (Γ : Ctx) (tool : Bool) :
    ∃ o : Option Node, Shows Γ false (if tool then lineOpen 2 c!"TOOL-EXTENSIONS" ++ lineClose 2 c!"TOOL-EXTENSIONS" else []) o.toList ∧
      (∀ n ∈ o.toList, n.tag = .name c!"TOOL-EXTENSIONS") ∧ o.isSome = tool ∧ o.toList.map Xsd.said = Xsd.toolSaid tool := by
  cases tool with
  | false => exact ⟨none, Shows.nil Γ, by simp, rfl, rfl⟩
  | true =>
    obtain ⟨n, n1, -, n2⟩ := Shows.block 2 (tag := c!"TOOL-EXTENSIONS") (by decide) (Shows.nil Γ)
    rw [List.append_nil] at n2
    refine ⟨some n, n2, ?_, rfl, congrArg (fun s => [s]) (n1.saysList (by decide))⟩
    intro m hm
    have : m = n := by simpa using hm
    rw [this]; exact n1.tag

theorem unparse_parts {b : Bundle} {tag core : Str} {hdr : Option Str} (h1 : unparseNamespaceInfo b.namespaceInfo = .ok tag)
    (h2 : optPy unparseHeader b.header = .ok hdr) (h3 : unparseCore (none : Option (Callback Unit)) b.coreContent () = (.ok core, ())) :
    unparse b = .ok (xmlDeclLine ++ tag ++ hdr.getD [] ++ core ++
      (if b.toolExtensionsTagExists then lineOpen 2 c!"TOOL-EXTENSIONS" ++ lineClose 2 c!"TOOL-EXTENSIONS" else []) ++ c!"</REQ-IF>\n") := by
  have e : unparseM (none : Option (Callback Unit)) b () = (.ok (xmlDeclLine ++ tag ++ hdr.getD [] ++ core ++
      (if b.toolExtensionsTagExists then lineOpen 2 c!"TOOL-EXTENSIONS" ++ lineClose 2 c!"TOOL-EXTENSIONS" else []) ++ c!"</REQ-IF>\n"), ()) := by
    unfold unparseM
    have h1' : M.lift (unparseNamespaceInfo b.namespaceInfo) () = (.ok tag, ()) := by unfold M.lift; rw [h1]
    have h2' : M.lift (optPy unparseHeader b.header) () = (.ok hdr, ()) := by unfold M.lift; rw [h2]
    refine (M.bind_ok h1').trans ?_
    refine (M.bind_ok h2').trans ?_
    refine (M.bind_ok h3).trans ?_
    rfl
  unfold unparse
  rw [e]

/-- What a safe bundle is printed as, and what that is read as. -/
theorem bundle_survives {as : List (Str × Str)} {p : Str} {b : Bundle} (h : SafeBundle as p b) :
    ∃ t d b', unparse b = .ok t ∧ readDoc t = some d ∧ (∃ i ks, d.root = .elem i ks ∧ i.name = c!"REQ-IF" ∧ i.pfx = none ∧
        (SortedNodes ks ∧ resolveInfo [] c!"REQ-IF" as = some i ∧ RootLaid p i ks ((Xsd.bundleSaid p b).map Xsd.Said.name)) ∧
        ∃ r, strippedRoot d.root = .ok r ∧ Xsd.saidInside r = Xsd.byName (Xsd.bundleSaid p b)) ∧
      parseString t = .ok b' ∧
      b'.namespaceInfo = readRoot as b.namespaceInfo ∧ b'.header = b.header.map readHeader ∧
      b'.coreContent.map (·.map bareContent) = b.coreContent.map (·.map readContent) ∧
      b'.toolExtensionsTagExists = b.toolExtensionsTagExists ∧ b'.lookup = lookupFor b'.coreContent ∧ b'.exceptions = [] ∧
      (b.namespaceInfo.originalReqifTagDump.isSome = true ∨ (∀ a ∈ as, serAttr a.2 = a.2) →
        (∀ hd, b.header = some hd → hd.repositoryId ≠ .text []) → unparse b' = .ok t) := by
  obtain ⟨ras, ri, hri, hprint, hras1, hras2, hdesc⟩ := safeRoot_tag h.root
  have hgood := h.root.1
  have hΓ : ∀ u, IsCtx as p u (rootCtx ri p u) := fun u => ⟨ri, hri.res, rfl⟩
  have hclean : ∀ u, (rootCtx ri p u).Clean := fun u => rootCtx_clean hri p u
  obtain ⟨u, hu⟩ : ∃ u, u = coreUses b.coreContent := ⟨_, rfl⟩
  obtain ⟨th, oh, a1, a2, a3, a4, a5, a6⟩ := header_part (rootCtx ri p u) h.header
  obtain ⟨tc, oc, core', b1, b2, b3, b4, b5, b6, b7, b8⟩ := core_part (hclean u) (core := b.coreContent) (by
    intro c hcc
    refine h.content c hcc _ ?_
    have : u = contentUses c := by rw [hu, hcc]; rfl
    rw [← this]
    exact hΓ u)
  obtain ⟨ot, d1, d2, d3, d4⟩ := tool_part (rootCtx ri p u) b.toolExtensionsTagExists
  rw [← hu] at b2
  have hs := (a2.append b2).append d1
  rw [Bool.false_or, Bool.or_false] at hs
  obtain ⟨ks0, ks, r1, r2, r3, rsort, rlaid⟩ := readDoc_tag hri hs
  have hp := unparse_parts hprint a1 b1
  generalize htool : (if b.toolExtensionsTagExists then lineOpen 2 c!"TOOL-EXTENSIONS" ++ lineClose 2 c!"TOOL-EXTENSIONS" else []) = tt at *
  have htext : xmlDeclLine ++ (rootTag ras ++ c!"\n") ++ th.getD [] ++ tc ++ tt ++ c!"</REQ-IF>\n" =
      declText ++ (c!"<REQ-IF" ++ attrsText ras ++ c!">") ++ c!"\n" ++ (th.getD [] ++ tc ++ tt) ++ c!"</REQ-IF>\n" := by
    rw [rootTag_eq]
    have : xmlDeclLine = declText := rfl
    rw [this]
    simp only [List.append_assoc]
  rw [htext] at hp
  generalize hdoc : declText ++ (c!"<REQ-IF" ++ attrsText ras ++ c!">") ++ c!"\n" ++ (th.getD [] ++ tc ++ tt) ++ c!"</REQ-IF>\n" = text at *
  obtain ⟨hname, hpfx, hmap, hns⟩ := resolveInfo_root hri.res
  -- the root as parsed
  generalize hroot : Node.elem (keptInfo ri p u) ks = root at *
  have hchildren : root.children = oh.toList ++ oc.toList ++ ot.toList := by rw [← hroot]; exact r3
  have hfind : ∀ t, root.find t = ((if c!"THE-HEADER" = t then oh else none).or (if c!"CORE-CONTENT" = t then oc else none)).or
      (if c!"TOOL-EXTENSIONS" = t then ot else none) := by
    intro t
    rw [find_eq, hchildren, List.find?_append, List.find?_append, find_toList a3, find_toList b3, find_toList d2]
  have q1 : root.find c!"THE-HEADER" = oh := by rw [hfind]; simp
  have q2 : root.find c!"CORE-CONTENT" = oc := by rw [hfind]; simp
  have q3 : root.find c!"TOOL-EXTENSIONS" = ot := by rw [hfind]; simp
  have htag : root.tag = .name c!"REQ-IF" := by
    rw [← hroot]
    show Tag.name (clark none ri.name) = _
    rw [hname]
    rfl
  have hlen : ¬ root.len = 0 := by
    unfold Node.len
    rw [hchildren]
    intro e
    have hne := h.notEmpty
    simp only [List.length_append] at e
    have l1 : oh.toList.length = 0 → b.header.isSome = false := by rw [← a4]; cases oh <;> simp
    have l2 : oc.toList.length = 0 → b.coreContent.isSome = false := by rw [← b4]; cases oc <;> simp
    have l3 : ot.toList.length = 0 → b.toolExtensionsTagExists = false := by rw [← d3]; cases ot <;> simp
    rw [l1 (by omega), l2 (by omega), l3 (by omega)] at hne
    simp at hne
  generalize hd : (⟨some ⟨some c!"UTF-8"⟩, [.elem ri ks0], .elem ri ks0⟩ : Doc) = d at *
  have hdr : d.root = .elem ri ks0 := by rw [← hd]
  have hparse : parseString text = .ok ⟨namespaceInfoOf d root, b.header.map readHeader, core', ot.isSome, lookupFor core', []⟩ := by
    have e : parseFromString (none : Option (Callback Unit)) text () =
        (.ok ⟨namespaceInfoOf d root, b.header.map readHeader, core', ot.isSome, lookupFor core', []⟩, ()) := by
      unfold parseFromString
      have hl : ¬ text.length = 0 := by
        rw [← hdoc]
        simp
      rw [if_neg hl, r1]
      dsimp only
      unfold parseReqif
      have e1 : M.lift (strippedRoot d.root) () = (.ok root, ()) := by unfold M.lift; rw [hdr, r2]
      refine (M.bind_ok e1).trans ?_
      rw [if_pos htag, if_neg hlen]
      have e2 : M.lift (optPy parseHeader (root.find c!"THE-HEADER")) () = (.ok (b.header.map readHeader), ()) := by
        unfold M.lift; rw [q1, a5]
      refine (M.bind_ok e2).trans ?_
      refine (M.bind_ok (b5 root q2)).trans ?_
      rw [q3]
    unfold parseString
    rw [e]
  have hinfo : namespaceInfoOf d root = readRoot as b.namespaceInfo := by
    have hk := describes_of hgood hri.res (d := d) (nons := root) hdr (by rw [← hroot]; rfl)
    obtain ⟨k1, k2, k3, k4, k5, k6, k7⟩ := hk
    obtain ⟨j1, j2, j3, j4, j5, j6, j7⟩ := hdesc
    have m0 : (namespaceInfoOf d root).originalReqifTagDump = some (capturedTag as) := by
      show some (tagDumpOf d.root) = _
      rw [hdr]
      show some (rootTagDump ri) = _
      rw [rootTagDump_eq hgood hri.res]
    have m1 : (namespaceInfoOf d root).doctypeIsPresent = true := by rw [← hd]; rfl
    have m2 : (namespaceInfoOf d root).encoding = c!"UTF-8" := by rw [← hd]; rfl
    rw [← j1] at k1
    rw [← j2] at k2
    rw [← j3] at k3
    rw [← j4] at k4
    rw [← j5] at k5
    rw [← j6] at k6
    rw [← j7] at k7
    generalize namespaceInfoOf d root = ni at *
    generalize b.namespaceInfo = ni2 at *
    cases ni
    cases ni2
    simp only [readRoot] at *
    subst k1 k2 k3 k4 k5 k6 k7 m0 m1 m2
    rfl
  refine ⟨text, d, _, hp, r1, ⟨ri, ks0, hdr, hname, hpfx, ⟨rsort, hri.res, rlaid.laid, rlaid.plain, ?_⟩, root, by rw [hdr, r2], ?_⟩, hparse, hinfo, rfl, b6, d3, rfl, rfl, ?_⟩
  · rw [rlaid.names, Xsd.childNames_append, Xsd.childNames_append, Xsd.childNames_said a3 (by decide), Xsd.childNames_said b3 (by decide),
      Xsd.childNames_said d2 (by decide), a6, b8, d4, Xsd.bundleSaid, List.map_append, List.map_append]
    rfl
  · unfold Xsd.saidInside
    rw [Xsd.saidAll_children, hchildren]
    simp only [List.map_append, a6, b8, d4]
    rfl
  intro hcap hrep
  have hras : ras = serAttrs as := by
    rcases hcap with hcap | hcap
    · exact hras1 hcap
    · cases hdump : b.namespaceInfo.originalReqifTagDump with
      | some s => exact hras1 (by rw [hdump]; rfl)
      | none =>
        rw [hras2 hdump]
        unfold serAttrs
        have := List.map_congr_left (l := as) (f := fun a => (a.1, serAttr a.2)) (g := id) (fun a ha => by simp [hcap a ha])
        rw [this, List.map_id]
  have p1 : unparseNamespaceInfo (namespaceInfoOf d root) = .ok (rootTag ras ++ c!"\n") := by
    rw [hinfo, hras]
    rfl
  have p2 : optPy unparseHeader (b.header.map readHeader) = .ok th := by
    rw [← a1]
    cases hh : b.header with
    | none => rfl
    | some x =>
      simp only [Option.map_some, optPy]
      rw [C41_stable (hrep x hh)]
  have := unparse_parts (b := ⟨namespaceInfoOf d root, b.header.map readHeader, core', ot.isSome, lookupFor core', []⟩) p1 p2 b7
  rw [this]
  dsimp only
  rw [d3, htool, htext]

end ReqIF

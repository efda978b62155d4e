import Verif.Proofs.ReadDoc
import Verif.Proofs.SizePrint
import Verif.Props.C86
/-!
# Documents that grow

Source without text and namespaces, and what is read from it; then documents with nested
hierarchies and with several `CHILDREN` elements.
-/
namespace ReqIF.Growth

/-- The start tag of an element without namespace. -/
def bareInfo (n : Str) (as : List (Str × Str)) : Info := ⟨none, none, n, [], [], as.map (fun a => ⟨none, none, a.1, a.2⟩)⟩

mutual
/-- The tree of source without text. -/
def tree : Src → Node
  | .elem n as ks => .elem (bareInfo n as) (trees ks)
  | .empty n as => .elem (bareInfo n as) []
  | .text raw => .text raw

def trees : List Src → List Node
  | [] => []
  | x :: xs => tree x :: trees xs
end

mutual
/-- The XML of source without text. -/
def xml : Src → Xml
  | .elem n as ks => .elem n as (xmls ks)
  | .empty n as => .elem n as []
  | .text raw => .text raw

def xmls : List Src → List Xml
  | [] => []
  | x :: xs => xml x :: xmls xs
end

/-- A start tag that is read as it stands. -/
def tagFine (n : Str) (as : List (Str × Str)) : Bool :=
  isQName n && as.all attrLexOk && (decodeAttrs as == some as) && !(attrsText as).contains '\r' && !n.contains '\r' &&
    (match resolveInfo [] n as with | some i => decide (i = bareInfo n as) | none => false)

mutual
/-- Source without text whose tags are read as they stand. -/
def fine : Src → Bool
  | .elem n as ks => tagFine n as && fines ks
  | .empty n as => tagFine n as
  | .text _ => false

def fines : List Src → Bool
  | [] => true
  | x :: xs => fine x && fines xs
end

theorem tagFine_parts {n : Str} {as : List (Str × Str)} (h : tagFine n as = true) :
    isQName n = true ∧ as.all attrLexOk = true ∧ decodeAttrs as = some as ∧ '\r' ∉ attrsText as ∧ '\r' ∉ n ∧ resolveInfo [] n as = some (bareInfo n as) := by
  unfold tagFine at h
  simp only [Bool.and_eq_true, Bool.not_eq_true', beq_iff_eq] at h
  obtain ⟨⟨⟨⟨⟨h1, h2⟩, h3⟩, h4⟩, h5⟩, h6⟩ := h
  refine ⟨h1, h2, h3, by simpa using h4, by simpa using h5, ?_⟩
  split at h6
  · rename_i hi
    rw [hi, of_decide_eq_true h6]
  · cases h6

mutual
theorem fine_lex : ∀ x : Src, fine x = true → x.lexOk = true
  | .elem n as ks, h => by
    rw [fine, Bool.and_eq_true] at h
    obtain ⟨h1, h2, -⟩ := tagFine_parts h.1
    rw [Src.lexOk, h1, h2, fines_lex ks h.2]; rfl
  | .empty n as, h => by
    rw [fine] at h
    obtain ⟨h1, h2, -⟩ := tagFine_parts h
    rw [Src.lexOk, h1, h2]; rfl
  | .text _, h => by rw [fine] at h; cases h

theorem fines_lex : ∀ xs : List Src, fines xs = true → lexOkList xs = true
  | [], _ => by rw [lexOkList]
  | x :: xs, h => by
    rw [fines, Bool.and_eq_true] at h
    rw [lexOkList, fine_lex x h.1, fines_lex xs h.2]; rfl
end

mutual
theorem fine_noCr : ∀ x : Src, fine x = true → '\r' ∉ x.render
  | .elem n as ks, h => by
    rw [fine, Bool.and_eq_true] at h
    obtain ⟨-, -, -, h4, h5, -⟩ := tagFine_parts h.1
    have := fines_noCr ks h.2
    simp [Src.render, h4, h5, this]
  | .empty n as, h => by
    rw [fine] at h
    obtain ⟨-, -, -, h4, h5, -⟩ := tagFine_parts h
    simp [Src.render, h4, h5]
  | .text _, h => by rw [fine] at h; cases h

theorem fines_noCr : ∀ xs : List Src, fines xs = true → '\r' ∉ renderList xs
  | [], _ => by simp [renderList]
  | x :: xs, h => by
    rw [fines, Bool.and_eq_true] at h
    simp [renderList, fine_noCr x h.1, fines_noCr xs h.2]
end

mutual
theorem fine_exec : ∀ (x : Src) (ks : List Xml), fine x = true → x.exec ([], ks) = some ([], xml x :: ks)
  | .elem n as kids, ks, h => by
    rw [fine, Bool.and_eq_true] at h
    obtain ⟨-, -, h3, -⟩ := tagFine_parts h.1
    simp only [Src.exec, flushK, h3, fines_exec kids [] h.2, xml, List.append_nil, List.reverse_reverse]
  | .empty n as, ks, h => by
    rw [fine] at h
    obtain ⟨-, -, h3, -⟩ := tagFine_parts h
    simp only [Src.exec, flushK, h3, xml]
  | .text _, _, h => by rw [fine] at h; cases h

theorem fines_exec : ∀ (xs : List Src) (ks : List Xml), fines xs = true → execList xs ([], ks) = some ([], (xmls xs).reverse ++ ks)
  | [], ks, _ => by simp [execList, xmls]
  | x :: xs, ks, h => by
    rw [fines, Bool.and_eq_true] at h
    simp only [execList, fine_exec x ks h.1, fines_exec xs _ h.2, xmls, List.reverse_cons, List.append_assoc, List.cons_append, List.nil_append]
end

mutual
theorem fine_resolve : ∀ x : Src, fine x = true → resolve [] (xml x) = some (tree x)
  | .elem n as kids, h => by
    rw [fine, Bool.and_eq_true] at h
    obtain ⟨-, -, -, -, -, h6⟩ := tagFine_parts h.1
    have := fines_resolve kids h.2
    simp only [xml, resolve, h6, tree]
    rw [show (bareInfo n as).nsmap = [] from rfl, this]
  | .empty n as, h => by
    rw [fine] at h
    obtain ⟨-, -, -, -, -, h6⟩ := tagFine_parts h
    simp only [xml, resolve, h6, resolveList, tree]
  | .text _, h => by rw [fine] at h; cases h

theorem fines_resolve : ∀ xs : List Src, fines xs = true → resolveList [] (xmls xs) = some (trees xs)
  | [], _ => by simp [xmls, resolveList, trees]
  | x :: xs, h => by
    rw [fines, Bool.and_eq_true] at h
    simp only [xmls, resolveList, fine_resolve x h.1, fines_resolve xs h.2, trees]
end

/-- What is read. -/
theorem fine_read {n : Str} {as : List (Str × Str)} {ks : List Src} (h : fine (.elem n as ks) = true) :
    readDoc (Src.elem n as ks).render = some ⟨none, [tree (.elem n as ks)], tree (.elem n as ks)⟩ := by
  unfold readDoc
  rw [readRaw_src _ rfl (fine_lex _ h) (fine_noCr _ h)]
  have he : (Src.elem n as ks).eval = some (xml (.elem n as ks)) := by
    have h' := h
    rw [fine, Bool.and_eq_true] at h'
    obtain ⟨-, -, h3, -⟩ := tagFine_parts h'.1
    simp only [Src.eval, evalKids, h3, fines_exec ks [] h'.2, flushK, Option.map_some, List.append_nil, List.reverse_reverse, xml]
  rw [he]
  have hr := fine_resolve _ h
  simp only [Option.map_some, resolveList, hr]
  rfl

/-! ## The documents -/

/-- The object of a hierarchy node. -/
def objectSrc : Src := .elem c!"OBJECT" [] [.empty c!"SPEC-OBJECT-REF" []]

/-- `n + 1` hierarchy nodes, one within the other. -/
def nestSrc : Nat → Src
  | 0 => .elem c!"SPEC-HIERARCHY" [(c!"IDENTIFIER", c!"h")] [objectSrc]
  | n + 1 => .elem c!"SPEC-HIERARCHY" [(c!"IDENTIFIER", c!"h")] [objectSrc, .elem c!"CHILDREN" [] [nestSrc n]]

/-- A specification with `m` empty `CHILDREN` elements, then one with the nodes. -/
def specSrc (n m : Nat) : Src :=
  .elem c!"SPECIFICATION" [(c!"IDENTIFIER", c!"s")] (List.replicate m (.empty c!"CHILDREN" []) ++ [.elem c!"CHILDREN" [] [nestSrc n]])

/-- The document. -/
def growing (n m : Nat) : Src :=
  .elem c!"REQ-IF" [] [.elem c!"CORE-CONTENT" [] [.elem c!"REQ-IF-CONTENT" [] [.elem c!"SPECIFICATIONS" [] [specSrc n m]]]]

theorem nest_fine : ∀ n : Nat, fine (nestSrc n) = true
  | 0 => by decide +kernel
  | n + 1 => by
    simp only [nestSrc, fine, fines, nest_fine n, Bool.and_true]
    decide +kernel

theorem fines_append : ∀ xs ys : List Src, fines (xs ++ ys) = (fines xs && fines ys)
  | [], ys => by rw [fines]; simp
  | x :: xs, ys => by rw [List.cons_append, fines, fines, fines_append xs ys, Bool.and_assoc]

theorem growing_fine (n m : Nat) : fine (growing n m) = true := by
  have hr : fines (List.replicate m (.empty c!"CHILDREN" [])) = true := by
    induction m with
    | zero => rfl
    | succ m ih => rw [List.replicate_succ, fines, ih]; decide +kernel
  simp only [growing, specSrc, fine, fines, fines_append, hr, nest_fine n, Bool.and_true, Bool.true_and]
  decide +kernel

theorem nest_length : ∀ n : Nat, (nestSrc n).render.length ≤ 110 * (n + 1)
  | 0 => by decide +kernel
  | n + 1 => by
    have := nest_length n
    have e : (objectSrc.render).length = 35 := by decide +kernel
    simp only [nestSrc, Src.render, renderList, attrsText, List.length_append, List.length_cons, List.length_nil, e, List.flatMap_cons, List.flatMap_nil]
    omega

/-- The documents are short. -/
theorem growing_length (n m : Nat) : (growing n m).render.length ≤ 110 * (n + 1) + 11 * m + 200 := by
  have hr : (renderList (List.replicate m (.empty c!"CHILDREN" []))).length = 11 * m := by
    induction m with
    | zero => rfl
    | succ m ih =>
      have e : (Src.render (.empty c!"CHILDREN" [])).length = 11 := by decide +kernel
      rw [List.replicate_succ, renderList, List.length_append, ih, e]; omega
  have := nest_length n
  simp only [growing, specSrc, Src.render, renderList, renderList_append, attrsText, List.length_append, List.length_cons, List.length_nil, hr,
    List.flatMap_cons, List.flatMap_nil]
  omega

/-! ## What is read from them -/

/-- The fields of a node of the hierarchies read. -/
def nestInfo (level : Nat) (order : Bool) (x : Node) : HInfo :=
  { identifier := c!"h", specObject := none, level, longName := none, refThenChildrenOrder := order, lastChange := none, editable := none,
    isTableInternal := none, isSelfClosed := false, xmlNode := some x }

/-- The hierarchies read. -/
def nestHierarchy : Nat → Nat → Hierarchy
  | level, 0 => .leaf (nestInfo level false (tree (nestSrc 0)))
  | level, n + 1 => .node (nestInfo level true (tree (nestSrc (n + 1)))) [nestHierarchy (level + 1) n]

theorem nest_elem (n : Nat) : ∃ i ks, tree (nestSrc n) = .elem i ks := by
  cases n <;> exact ⟨_, _, rfl⟩

theorem nest_parse : ∀ (n level : Nat), parseHierarchy level (tree (nestSrc n)) = .ok (nestHierarchy level n)
  | 0, level => by
    simp only [nestSrc, tree, trees]
    rfl
  | n + 1, level => by
    have ih := nest_parse n (level + 1)
    obtain ⟨i, ks, he⟩ := nest_elem n
    have hk : parseHierarchies (level + 1) [tree (nestSrc n)] = .ok [nestHierarchy (level + 1) n] := by
      rw [he] at ih ⊢
      simp only [parseHierarchies, ih]
    have hl : ((Node.elem (bareInfo c!"CHILDREN" []) [tree (nestSrc n)]).len == 0) = false := by rw [he]; rfl
    have hc : parseFirstChildren (level + 1) (trees [objectSrc, .elem c!"CHILDREN" [] [nestSrc n]]) = some (.ok (false, [nestHierarchy (level + 1) n])) := by
      have e : trees [objectSrc, .elem c!"CHILDREN" [] [nestSrc n]] =
        [.elem (bareInfo c!"OBJECT" []) [.elem (bareInfo c!"SPEC-OBJECT-REF" []) []], .elem (bareInfo c!"CHILDREN" []) [tree (nestSrc n)]] := rfl
      rw [e, parseFirstChildren, if_neg (by decide), parseFirstChildren, if_pos (show (Node.elem (bareInfo c!"CHILDREN" []) [tree (nestSrc n)]).tag = .name c!"CHILDREN" from rfl), hk, hl]
      rfl
    have e : tree (nestSrc (n + 1)) = .elem (bareInfo c!"SPEC-HIERARCHY" [(c!"IDENTIFIER", c!"h")]) (trees [objectSrc, .elem c!"CHILDREN" [] [nestSrc n]]) := rfl
    rw [nestHierarchy, e, parseHierarchy, hc]
    rfl

theorem nest_length_out : ∀ (n l : Nat), ∃ s, unparseHierarchy (nestHierarchy (l + 1) n) = .ok s ∧ n * (n + 2 * l) ≤ s.length
  | 0, l => ⟨_, rfl, by simp⟩
  | n + 1, l => by
    obtain ⟨s, hs, hl⟩ := nest_length_out n (l + 1)
    have hb : (Hierarchy.node (nestInfo (l + 1) true (tree (nestSrc (n + 1)))) [nestHierarchy (l + 2) n]).baseLevel = .ok (12 + l * 4) := rfl
    have hu : unparseHierarchies [nestHierarchy (l + 2) n] = .ok (s ++ []) := by
      simp only [unparseHierarchies]
      rw [hs]
    refine ⟨_, by rw [nestHierarchy, unparseHierarchy, hb, hu], ?_⟩
    have hs' : s.length ≤ (lineOpen (12 + l * 4 + 2) c!"CHILDREN" ++ (s ++ []) ++ lineClose (12 + l * 4 + 2) c!"CHILDREN").length := by
      simp only [List.length_append]; omega
    have e : (if ([nestHierarchy (l + 2) n].isEmpty && (nestInfo (l + 1) true (tree (nestSrc (n + 1)))).isSelfClosed) = true then
        spaces (12 + l * 4 + 2) ++ c!"<CHILDREN/>\n" else lineOpen (12 + l * 4 + 2) c!"CHILDREN" ++ (s ++ []) ++ lineClose (12 + l * 4 + 2) c!"CHILDREN") =
        lineOpen (12 + l * 4 + 2) c!"CHILDREN" ++ (s ++ []) ++ lineClose (12 + l * 4 + 2) c!"CHILDREN" := rfl
    rw [e]
    have e2 : (nestInfo (l + 1) true (tree (nestSrc (n + 1)))).refThenChildrenOrder = true := rfl
    rw [e2, if_pos rfl]
    have h2 : (n + 1) * (n + 1 + 2 * l) = n * (n + 2 * (l + 1)) + 2 * l + 1 := by
      simp only [Nat.add_mul, Nat.mul_add]; omega
    rw [h2]
    simp only [List.length_append, lineOpen_len, lineClose_len, List.length_cons, List.length_nil, List.length_append] at hs' ⊢
    omega

/-- The specification read. -/
def growSpec (n m : Nat) : Specification :=
  { identifier := c!"s", description := none, lastChange := none, longName := none, values := none, specificationType := none,
    children := some [nestHierarchy 1 n], xmlNode := some (tree (specSrc n m)) }

theorem find_tag {a : Str} {i : Info} {ks ns : List Node} (h : (Node.elem i ks).tag = .name a) :
    (ns ++ [Node.elem i ks]).filter (fun k => k.tag == .name a) = ns.filter (fun k => k.tag == .name a) ++ [.elem i ks] := by
  rw [List.filter_append]
  simp [h]

theorem trees_append : ∀ xs ys : List Src, trees (xs ++ ys) = trees xs ++ trees ys
  | [], ys => rfl
  | x :: xs, ys => by rw [List.cons_append, trees, trees, trees_append xs ys]; rfl

theorem trees_replicate (x : Src) : ∀ m : Nat, trees (List.replicate m x) = List.replicate m (tree x)
  | 0 => rfl
  | m + 1 => by rw [List.replicate_succ, trees, trees_replicate x m, List.replicate_succ]

/-- The child nodes of the specification. -/
theorem spec_tree (n m : Nat) : tree (specSrc n m) = .elem (bareInfo c!"SPECIFICATION" [(c!"IDENTIFIER", c!"s")])
    (List.replicate m (.elem (bareInfo c!"CHILDREN" []) []) ++ [.elem (bareInfo c!"CHILDREN" []) [tree (nestSrc n)]]) := by
  rw [specSrc, tree, trees_append, trees_replicate]
  rfl

theorem spec_children (n m : Nat) : (tree (specSrc n m)).children =
    List.replicate m (.elem (bareInfo c!"CHILDREN" []) []) ++ [.elem (bareInfo c!"CHILDREN" []) [tree (nestSrc n)]] := by
  rw [spec_tree]
  unfold Node.children
  simp only [Node.kids]
  rw [List.filter_eq_self]
  intro a ha
  simp only [List.mem_append, List.mem_replicate, List.mem_singleton] at ha
  rcases ha with ⟨-, rfl⟩ | rfl <;> rfl

theorem spec_tags (n m : Nat) : childTags (tree (specSrc n m)) = List.replicate (m + 1) (.name c!"CHILDREN") := by
  unfold childTags
  rw [spec_children, List.map_append, List.map_replicate, List.replicate_succ']
  rfl

theorem spec_noValues (n m : Nat) {t : Str} (h : t ≠ c!"CHILDREN") : (tree (specSrc n m)).find t = none := by
  unfold Node.find
  rw [List.find?_eq_none]
  intro a ha
  rw [spec_tree] at ha
  simp only [Node.kids, List.mem_append, List.mem_replicate, List.mem_singleton] at ha
  have e : ∀ ks, ((Node.elem (bareInfo c!"CHILDREN" []) ks).tag == Tag.name t) = false := by
    intro ks
    have : (Node.elem (bareInfo c!"CHILDREN" []) ks).tag = .name c!"CHILDREN" := rfl
    rw [this]
    simp only [beq_eq_false_iff_ne, ne_eq, Tag.name.injEq]
    exact fun e => h e.symm
  rcases ha with ⟨-, rfl⟩ | rfl <;> simp [e]

theorem spec_parse (n m : Nat) : parseSpecification (tree (specSrc n m)) = .ok (growSpec n m) := by
  have h1 : findLast (tree (specSrc n m)) c!"CHILDREN" = some (.elem (bareInfo c!"CHILDREN" []) [tree (nestSrc n)]) := by
    unfold findLast
    rw [spec_children, find_tag (a := c!"CHILDREN") rfl]
    simp
  have h2 : (Node.elem (bareInfo c!"CHILDREN" []) [tree (nestSrc n)]).children = [tree (nestSrc n)] := by
    obtain ⟨i, ks, he⟩ := nest_elem n
    rw [he]; rfl
  have h3 : mapPy (parseHierarchy 1) [tree (nestSrc n)] = .ok [nestHierarchy 1 n] := by
    simp only [mapPy, nest_parse]
  have h4 : tagContains (tree (specSrc n m)) c!"SPECIFICATION" = .ok true := by rw [spec_tree]; rfl
  have h5 : attrReqNI (tree (specSrc n m)) c!"IDENTIFIER" = .ok c!"s" := by rw [spec_tree]; rfl
  have h6 : optRef (tree (specSrc n m)) c!"TYPE" c!"SPECIFICATION-TYPE-REF" = none := by
    unfold optRef
    rw [spec_noValues n m (by decide)]
  have h7 : parseAttributeValues ((tree (specSrc n m)).find c!"VALUES") = .ok none := by
    rw [spec_noValues n m (by decide)]; rfl
  unfold parseSpecification
  rw [h1, h4, h5, h6, h7]
  dsimp only
  rw [h2, h3, spec_tree]
  rw [growSpec, spec_tree]
  rfl

/-- The specification is printed with the hierarchies once for each `CHILDREN` element. -/
theorem spec_out (n m : Nat) : ∃ s, unparseSpecification (growSpec n m) = .ok s ∧ (m + 1) * (n * n) ≤ s.length := by
  obtain ⟨h, h1, h2⟩ := nest_length_out n 0
  have h3 : unparseHierarchies [nestHierarchy 1 n] = .ok (h ++ []) := by
    simp only [unparseHierarchies]
    rw [h1]
  have h4 : unparseSpecificationChild (growSpec n m) (.name c!"CHILDREN") = .ok (lineOpen 10 c!"CHILDREN" ++ (h ++ []) ++ lineClose 10 c!"CHILDREN") := by
    show (do
      let body ← unparseHierarchies [nestHierarchy 1 n]
      return lineOpen 10 c!"CHILDREN" ++ body ++ lineClose 10 c!"CHILDREN" : Py Str) = _
    rw [h3]
    rfl
  have h5 : ∀ k : Nat, ∃ s, concatPy (unparseSpecificationChild (growSpec n m)) (List.replicate k (.name c!"CHILDREN")) = .ok s ∧ k * (n * n) ≤ s.length := by
    intro k
    induction k with
    | zero => exact ⟨[], rfl, by simp⟩
    | succ k ih =>
      obtain ⟨s, g1, g2⟩ := ih
      refine ⟨_, by rw [List.replicate_succ]; simp only [concatPy]; rw [h4, g1], ?_⟩
      simp only [List.length_append]
      have : (k + 1) * (n * n) = k * (n * n) + n * n := by rw [Nat.add_mul, Nat.one_mul]
      simp only [Nat.mul_zero, Nat.add_zero] at h2
      omega
  obtain ⟨s, g1, g2⟩ := h5 (m + 1)
  have g3 : specificationChildTags (growSpec n m) = List.replicate (m + 1) (.name c!"CHILDREN") := spec_tags n m
  unfold unparseSpecification
  rw [g3, g1]
  refine ⟨_, rfl, ?_⟩
  simp only [List.length_append]
  omega

/-- The bundle read. -/
theorem growing_read (n m : Nat) : ∃ b, parseString (growing n m).render = .ok b ∧
    b.header = none ∧ b.coreContent = some (some ⟨none, none, none, none, some [growSpec n m], none⟩) ∧ b.namespaceInfo.originalReqifTagDump.isSome = true := by
  have hr := fine_read (growing_fine n m)
  have hne : (growing n m).render.length ≠ 0 := by simp [growing, Src.render]
  have hp : parseString (growing n m).render = (parseReqif (none : Option (Callback Unit)) ⟨none, [tree (growing n m)], tree (growing n m)⟩ ()).1 := by
    unfold parseString parseFromString
    rw [if_neg hne]
    rw [show readDoc (growing n m).render = _ from hr]
    rfl
  rw [hp]
  have ht : tree (growing n m) = .elem (bareInfo c!"REQ-IF" []) [.elem (bareInfo c!"CORE-CONTENT" []) [.elem (bareInfo c!"REQ-IF-CONTENT" [])
    [.elem (bareInfo c!"SPECIFICATIONS" []) [tree (specSrc n m)]]]] := rfl
  have hs : parseContainer (none : Option (Callback Unit)) (.elem (bareInfo c!"REQ-IF-CONTENT" []) [.elem (bareInfo c!"SPECIFICATIONS" []) [tree (specSrc n m)]])
      c!"SPECIFICATIONS" specificationStep [] () = (.ok (some [growSpec n m]), ()) := by
    rw [parseContainer_none]
    have e : (Node.elem (bareInfo c!"REQ-IF-CONTENT" []) [.elem (bareInfo c!"SPECIFICATIONS" []) [tree (specSrc n m)]]).find c!"SPECIFICATIONS" =
        some (.elem (bareInfo c!"SPECIFICATIONS" []) [tree (specSrc n m)]) := rfl
    have e2 : (Node.elem (bareInfo c!"SPECIFICATIONS" []) [tree (specSrc n m)]).children = [tree (specSrc n m)] := rfl
    unfold containerResult
    rw [e]
    dsimp only
    rw [e2]
    simp only [foldPy, specificationStep, spec_parse]
    rfl
  have hc : parseContent (none : Option (Callback Unit)) (.elem (bareInfo c!"REQ-IF-CONTENT" []) [.elem (bareInfo c!"SPECIFICATIONS" []) [tree (specSrc n m)]]) () =
      (.ok (⟨none, none, none, none, some [growSpec n m], none⟩, { Lookup.empty with parentsDefault := true }, []), ()) := by
    have e : ∀ {β : Type} (t : Str) (f : β → Node → Py β) (b : β), t ≠ c!"SPECIFICATIONS" → parseContainer (none : Option (Callback Unit))
        (.elem (bareInfo c!"REQ-IF-CONTENT" []) [.elem (bareInfo c!"SPECIFICATIONS" []) [tree (specSrc n m)]]) t f b () = (.ok none, ()) := by
      intro β t f b h
      have : (Node.elem (bareInfo c!"REQ-IF-CONTENT" []) [.elem (bareInfo c!"SPECIFICATIONS" []) [tree (specSrc n m)]]).find t = none := by
        unfold Node.find
        rw [List.find?_eq_none]
        intro a ha
        simp only [Node.kids, List.mem_singleton] at ha
        rw [ha]
        have : (Node.elem (bareInfo c!"SPECIFICATIONS" []) [tree (specSrc n m)]).tag = .name c!"SPECIFICATIONS" := rfl
        rw [this]
        simp only [Bool.and_eq_true, beq_iff_eq, Tag.name.injEq, not_and]
        exact fun _ e => h e.symm
      unfold parseContainer
      rw [this]
    unfold parseContent
    simp only [M.bind]
    rw [e _ _ _ (by decide), ]
    dsimp only
    rw [e _ _ _ (by decide)]
    dsimp only
    rw [hs]
    dsimp only
    rw [e _ _ _ (by decide)]
    dsimp only
    rw [e _ _ _ (by decide)]
    dsimp only
    rw [e _ _ _ (by decide)]
    rfl
  have hcore : parseCore (none : Option (Callback Unit)) (tree (growing n m)) () =
      (.ok (some (some ⟨none, none, none, none, some [growSpec n m], none⟩), { Lookup.empty with parentsDefault := true }, []), ()) := by
    rw [ht]
    unfold parseCore
    have e : ∀ a b : Str, ∀ ks : List Node, (Node.elem (bareInfo a []) [.elem (bareInfo b []) ks]).find b = some (.elem (bareInfo b []) ks) := by
      intro a b ks
      unfold Node.find
      have : (Node.elem (bareInfo b []) ks).tag = .name b := rfl
      simp [Node.kids, this, Node.isText]
    rw [e]
    dsimp only
    rw [e]
    dsimp only
    simp only [M.bind]
    rw [hc]
  unfold parseReqif
  have h1 : strippedRoot (tree (growing n m)) = .ok (tree (growing n m)) := rfl
  have h2 : (tree (growing n m)).tag = .name c!"REQ-IF" := rfl
  have h3 : (tree (growing n m)).len = 1 := rfl
  have h4 : (tree (growing n m)).find c!"THE-HEADER" = none := rfl
  simp only [M.bind, M.lift, h1, h2, h3, h4, if_true, optPy]
  rw [if_neg (by decide)]
  simp only [M.bind, M.lift]
  rw [hcore]
  exact ⟨_, rfl, rfl, rfl, rfl⟩

/-- It is written as a long text. -/
theorem growing_written (n m : Nat) : ∃ b out, parseString (growing n m).render = .ok b ∧ unparse b = .ok out ∧ (m + 1) * (n * n) ≤ out.length := by
  obtain ⟨b, h1, h2, h3, h4⟩ := growing_read n m
  obtain ⟨s, g1, g2⟩ := spec_out n m
  obtain ⟨dump, hd⟩ := Option.isSome_iff_exists.1 h4
  have e1 : unparseNamespaceInfo b.namespaceInfo = .ok (dump ++ c!"\n") := by unfold unparseNamespaceInfo; rw [hd]
  have e2 : unparseContainer (none : Option (Callback Unit)) c!"SPECIFICATIONS" unparseSpecification (some [growSpec n m]) () =
      (.ok (lineOpen 6 c!"SPECIFICATIONS" ++ ([] ++ s) ++ lineClose 6 c!"SPECIFICATIONS"), ()) := by
    simp only [unparseContainer, trackedLoop, M.bind, trackedGo_none, foldPy, printStep, g1]
  have e3 : unparseCore (none : Option (Callback Unit)) b.coreContent () = (.ok (lineOpen 2 c!"CORE-CONTENT" ++ (lineOpen 4 c!"REQ-IF-CONTENT" ++ [] ++ [] ++ [] ++ [] ++
      (lineOpen 6 c!"SPECIFICATIONS" ++ ([] ++ s) ++ lineClose 6 c!"SPECIFICATIONS") ++ [] ++ lineClose 4 c!"REQ-IF-CONTENT") ++ lineClose 2 c!"CORE-CONTENT"), ()) := by
    rw [h3]
    unfold unparseCore unparseContent
    simp only [M.bind, e2]
    rfl
  have e4 : ∃ out, unparse b = .ok out ∧ s.length ≤ out.length := by
    unfold unparse unparseM
    simp only [M.bind, M.lift]
    rw [e1, h2]
    simp only [optPy, M.bind, e3, M.pure]
    exact ⟨_, rfl, by simp only [List.length_append]; omega⟩
  obtain ⟨out, e5, e6⟩ := e4
  exact ⟨b, out, h1, e5, by omega⟩

end ReqIF.Growth

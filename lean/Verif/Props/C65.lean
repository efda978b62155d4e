import Verif.Proofs.Xhtml
import Verif.Props.C25_31
/-!
# C65: the validation report
-/
namespace ReqIF
open Spec

/-! ## Trees without processing instructions -/

mutual
theorem stripTags_noPI : ∀ (full : Bool) (n n' : Node), stripTags full n = .ok n' → hasPI n' = false
  | full, .text s, n', h => by rw [stripTags] at h; cases h; rfl
  | full, .comment s, n', h => by rw [stripTags] at h; cases h; rfl
  | full, .pi t d, n', h => by
    rw [stripTags] at h
    split at h <;> cases h
  | full, .elem i ks, n', h => by
    rw [stripTags] at h
    cases hk : stripTagsList full ks with
    | error e => rw [hk] at h; cases h
    | ok ks' =>
      rw [hk] at h
      dsimp only at h
      have := stripTagsList_noPI full ks ks' hk
      split at h <;> cases h <;> rw [hasPI] <;> exact this

theorem stripTagsList_noPI : ∀ (full : Bool) (ns ns' : List Node), stripTagsList full ns = .ok ns' →
    hasPIs ns' = false
  | full, [], ns', h => by rw [stripTagsList] at h; cases h; rfl
  | full, n :: ns, ns', h => by
    rw [stripTagsList] at h
    cases h1 : stripTags full n with
    | error e => rw [h1] at h; cases h
    | ok a =>
      cases h2 : stripTagsList full ns with
      | error e => rw [h1, h2] at h; cases h
      | ok b =>
        rw [h1, h2] at h
        cases h
        rw [hasPIs, stripTags_noPI full n a h1, stripTagsList_noPI full ns b h2]; rfl
end

/-- The tree the parser works on has no processing instruction. -/
theorem strippedRoot_noPI {root r : Node} (h : hasDefaultNs root = true ∨ hasPI root = false)
    (hr : strippedRoot root = .ok r) : hasPI r = false := by
  unfold strippedRoot at hr
  unfold hasDefaultNs at h
  cases hg : root.nsmap.get? none with
  | none =>
    rw [hg] at hr h
    cases hr
    simpa using h
  | some u =>
    rw [hg] at hr
    dsimp only at hr
    unfold stripNamespace at hr
    cases hs : stripTags false root with
    | error e => rw [hs] at hr; cases hr
    | ok a =>
      rw [hs] at hr
      cases hr
      exact cleanup_noPI _ _ (stripTags_noPI _ _ _ hs)

theorem hasPIs_mem {ns : List Node} (h : hasPIs ns = false) {n : Node} (hn : n ∈ ns) : hasPI n = false := by
  induction ns with
  | nil => cases hn
  | cons m ms ih =>
    rw [hasPIs, Bool.or_eq_false_iff] at h
    rcases List.mem_cons.mp hn with rfl | hn
    · exact h.1
    · exact ih h.2 hn

theorem kids_noPI {n : Node} (h : hasPI n = false) : hasPIs n.kids = false := by
  cases n with
  | elem i ks => rw [hasPI] at h; exact h
  | _ => rfl

theorem find_noPI {n x : Node} {t : Str} (h : hasPI n = false) (hx : n.find t = some x) : hasPI x = false :=
  hasPIs_mem (kids_noPI h) (List.mem_of_find?_eq_some hx)

theorem children_noPI {n x : Node} (h : hasPI n = false) (hx : x ∈ n.children) : hasPI x = false :=
  hasPIs_mem (kids_noPI h) (List.mem_filter.mp hx).1

theorem findLast_noPI {n x : Node} {t : Str} (h : hasPI n = false) (hx : findLast n t = some x) : hasPI x = false :=
  children_noPI h (List.mem_filter.mp (List.mem_of_getLast? hx)).1

theorem contentNode_noPI {text : Str} {d : Doc} {x : Node} (hd : readDoc text = some d)
    (h : hasDefaultNs d.root = true ∨ hasPI d.root = false) (hx : contentNode text = some x) :
    hasPI x = false := by
  unfold contentNode at hx
  rw [hd] at hx
  dsimp only at hx
  cases hs : strippedRoot d.root with
  | error e => rw [hs] at hx; cases hx
  | ok r =>
    rw [hs] at hx
    dsimp only at hx
    unfold contentOf at hx
    obtain ⟨c, hc, hx⟩ := Option.bind_eq_some_iff.mp hx
    exact find_noPI (find_noPI (strippedRoot_noPI h hs) hc) hx

/-! ## Quoted elements -/

/-- The printed form of an element without namespace. -/
theorem quotes_of {owner : Str} {x : Node} {s : Str} (ho : owner.head? = some 'S')
    (ht : x.tag = .name owner) (hs : stringifyNode false x = .ok s) :
    ∃ f, Quotes owner (some x) f ∧ s = c!"<" ++ owner ++ f := by
  cases x with
  | text _ => cases ht; cases ho
  | comment _ => cases ht
  | pi _ _ => cases ht
  | elem i ks =>
    have hi : i.ns = none ∧ i.name = owner := by
      have e : clark i.ns i.name = owner := by
        have := ht
        simp only [Node.tag, Tag.name.injEq] at this
        exact this
      cases hn : i.ns with
      | none => rw [hn] at e; exact ⟨rfl, e⟩
      | some u =>
        rw [hn] at e
        rw [← e] at ho
        cases ho
    have hn : nodeTagOut i = owner := by
      unfold nodeTagOut
      rw [hi.1]
      split
      · exact hi.2
      · exact hi.2
    have key : ∃ f, s = c!"<" ++ owner ++ f := by
      rw [stringifyNode] at hs
      rw [hn] at hs
      split at hs
      · cases hk : stringifyKids ks with
        | error e => rw [hk] at hs; cases hs
        | ok b =>
          rw [hk] at hs
          cases hs
          exact ⟨attrsOut i.attrs ++ nodeDeclOut false i ++ c!">" ++ b ++ c!"</" ++ owner ++ c!">",
            by simp only [List.append_assoc]⟩
      · cases hs
        exact ⟨attrsOut i.attrs ++ nodeDeclOut false i ++ c!"/>", by simp only [List.append_assoc]⟩
    obtain ⟨f, hf⟩ := key
    exact ⟨f, ⟨_, rfl, ht, by rw [hs, hf]⟩, hf⟩

theorem quotes_noPI {owner : Str} {x : Node} (ho : owner.head? = some 'S')
    (ht : x.tag = .name owner) (h : hasPI x = false) : ∃ f, Quotes owner (some x) f := by
  have := stringifyNode_ok false x h
  cases hs : stringifyNode false x with
  | error e => rw [hs] at this; cases this
  | ok s =>
    obtain ⟨f, hf, _⟩ := quotes_of ho ht hs
    exact ⟨f, hf⟩

/-- Lines for a list, from a line for each item. -/
theorem linesFor_mapPy {α : Type} {g : α → Py Str} {pre : Str} {line : α → Str → Str} {quotes : α → Str → Prop}
    {items : List α} (h : ∀ x ∈ items, ∃ f t, quotes x f ∧ g x = .ok t ∧ pre ++ t = line x f) :
    ∃ ts, mapPy g items = .ok ts ∧ LinesFor line quotes items (ts.map (pre ++ ·)) := by
  induction items with
  | nil => exact ⟨[], rfl, [], rfl, by simp, rfl⟩
  | cons x xs ih =>
    obtain ⟨f, t, hq, hg, hl⟩ := h x (by simp)
    obtain ⟨ts, h1, fs, h2, h3, h4⟩ := ih (fun y hy => h y (by simp [hy]))
    refine ⟨t :: ts, by rw [mapPy, hg]; dsimp only; rw [h1], f :: fs, by simp [h2], ?_, ?_⟩
    · intro p hp
      rw [List.zip_cons_cons] at hp
      rcases List.mem_cons.mp hp with rfl | hp
      · exact hq
      · exact h3 p hp
    · rw [List.map_cons, h4, hl]; rfl

/-! ## Where the nodes come from -/

/-- The source of an item. -/
def FromNode (owner : Str) (o : Option Node) : Prop := ∃ x, o = some x ∧ x.tag = .name owner ∧ hasPI x = false

theorem relation_from {x : Node} {r : SpecRelation} (hx : hasPI x = false) (h : parseSpecRelation x = .ok (.ok r)) :
    FromNode c!"SPEC-RELATION" r.xmlNode := by
  unfold parseSpecRelation at h
  obtain ⟨_, h1, h⟩ := py_bind_inv h
  obtain ⟨_, _, h⟩ := py_bind_inv h
  have ht : x.tag = .name c!"SPEC-RELATION" := by
    unfold pyAssert at h1
    split at h1
    · rename_i h2; simpa using h2
    · cases h1
  split at h
  · cases h
  · split at h
    · cases h
    · obtain ⟨_, _, h⟩ := py_bind_inv h
      obtain ⟨_, _, h⟩ := py_bind_inv h
      obtain ⟨_, _, h⟩ := py_bind_inv h
      obtain ⟨_, _, h⟩ := py_bind_inv h
      obtain ⟨_, _, h⟩ := py_bind_inv h
      obtain ⟨_, _, h⟩ := py_bind_inv h
      obtain ⟨_, _, h⟩ := py_bind_inv h
      obtain ⟨_, _, h⟩ := py_bind_inv h
      obtain ⟨_, _, h⟩ := py_bind_inv h
      cases h
      exact ⟨x, rfl, ht, hx⟩

theorem missing_from {x : Node} {e : MissingTag} (h : relationItem x = .ok (.error e)) :
    ∃ s, e.node.tag = .name c!"SPEC-RELATION" ∧ stringifyNode false e.node = .ok s := by
  unfold relationItem at h
  cases hp : parseSpecRelation x with
  | error e => rw [hp] at h; cases h
  | ok o =>
    cases o with
    | ok r => rw [hp] at h; cases h
    | error m =>
      rw [hp] at h
      dsimp only at h
      cases hs : stringifyNode false m.node with
      | error e => rw [hs] at h; cases h
      | ok s =>
        rw [hs] at h
        cases h
        refine ⟨s, ?_, hs⟩
        unfold parseSpecRelation at hp
        obtain ⟨_, h1, hp⟩ := py_bind_inv hp
        obtain ⟨_, _, hp⟩ := py_bind_inv hp
        have ht : x.tag = .name c!"SPEC-RELATION" := by
          unfold pyAssert at h1
          split at h1
          · rename_i h2; simpa using h2
          · cases h1
        split at hp
        · cases hp; exact ht
        · split at hp
          · cases hp; exact ht
          · obtain ⟨_, _, hp⟩ := py_bind_inv hp
            obtain ⟨_, _, hp⟩ := py_bind_inv hp
            obtain ⟨_, _, hp⟩ := py_bind_inv hp
            obtain ⟨_, _, hp⟩ := py_bind_inv hp
            obtain ⟨_, _, hp⟩ := py_bind_inv hp
            obtain ⟨_, _, hp⟩ := py_bind_inv hp
            obtain ⟨_, _, hp⟩ := py_bind_inv hp
            obtain ⟨_, _, hp⟩ := py_bind_inv hp
            obtain ⟨_, _, hp⟩ := py_bind_inv hp
            cases hp

mutual
theorem parseHierarchy_from (n : Nat) (x : Node) (h : Hierarchy) (hx : hasPI x = false)
    (hp : parseHierarchy n x = .ok h) : ∀ y ∈ preorder h, FromNode c!"SPEC-HIERARCHY" y.info.xmlNode := by
  match x with
  | .text _ => cases hp
  | .comment _ => cases hp
  | .pi _ _ => cases hp
  | .elem i ks =>
    simp only [parseHierarchy] at hp
    split at hp
    · rename_i ht
      split at hp
      · cases hp
      · split at hp
        · cases hp
        · split at hp
          · cases hp
          · split at hp
            · cases hp
              intro y hy
              rw [preorder] at hy
              obtain rfl := List.mem_singleton.mp hy
              rw [info_leaf]
              exact ⟨_, rfl, ht, hx⟩
            · cases hp
            · rename_i hc
              cases hp
              intro y hy
              rw [preorder] at hy
              rcases List.mem_cons.mp hy with rfl | hy
              · rw [info_node]
                exact ⟨_, rfl, ht, hx⟩
              · rw [hasPI] at hx
                exact parseFirstChildren_from (n + 1) ks _ _ hx hc y hy
    · cases hp

theorem parseFirstChildren_from (n : Nat) (ns : List Node) (sc : Bool) (hs : List Hierarchy)
    (hx : hasPIs ns = false)
    (hp : parseFirstChildren n ns = some (.ok (sc, hs))) :
    ∀ y ∈ preorderList hs, FromNode c!"SPEC-HIERARCHY" y.info.xmlNode := by
  match ns with
  | [] => cases hp
  | .elem i ks :: ns =>
    rw [hasPIs, Bool.or_eq_false_iff] at hx
    simp only [parseFirstChildren] at hp
    split at hp
    · split at hp
      · cases hp
      · rename_i hc
        cases hp
        have h1 := hx.1
        rw [hasPI] at h1
        exact parseHierarchies_from n ks _ h1 hc
    · exact parseFirstChildren_from n ns sc hs hx.2 hp
  | .text _ :: ns =>
    rw [hasPIs, Bool.or_eq_false_iff] at hx
    exact parseFirstChildren_from n ns sc hs hx.2 (by simpa [parseFirstChildren] using hp)
  | .comment _ :: ns =>
    rw [hasPIs, Bool.or_eq_false_iff] at hx
    exact parseFirstChildren_from n ns sc hs hx.2 (by simpa [parseFirstChildren] using hp)
  | .pi _ _ :: ns =>
    rw [hasPIs, Bool.or_eq_false_iff] at hx
    exact parseFirstChildren_from n ns sc hs hx.2 (by simpa [parseFirstChildren] using hp)

theorem parseHierarchies_from (n : Nat) (ns : List Node) (hs : List Hierarchy) (hx : hasPIs ns = false)
    (hp : parseHierarchies n ns = .ok hs) :
    ∀ y ∈ preorderList hs, FromNode c!"SPEC-HIERARCHY" y.info.xmlNode := by
  match ns with
  | [] => cases hp; intro y hy; rw [preorderList] at hy; cases hy
  | .text _ :: ns =>
    rw [hasPIs, Bool.or_eq_false_iff] at hx
    exact parseHierarchies_from n ns hs hx.2 (by simpa [parseHierarchies] using hp)
  | .elem i ks :: ns =>
    rw [hasPIs, Bool.or_eq_false_iff] at hx
    simp only [parseHierarchies] at hp
    split at hp
    · cases hp
    · rename_i h1
      split at hp
      · cases hp
      · rename_i h2
        cases hp
        intro y hy
        rw [preorderList] at hy
        rcases List.mem_append.mp hy with hy | hy
        · exact parseHierarchy_from n _ _ hx.1 h1 y hy
        · exact parseHierarchies_from n ns _ hx.2 h2 y hy
  | .comment _ :: ns => simp [parseHierarchies, parseHierarchy] at hp
  | .pi _ _ :: ns => simp [parseHierarchies, parseHierarchy] at hp
end

theorem preorderList_mem {y : Hierarchy} {hs : List Hierarchy} (hy : y ∈ preorderList hs) :
    ∃ h ∈ hs, y ∈ preorder h := by
  induction hs with
  | nil => rw [preorderList] at hy; cases hy
  | cons h hs ih =>
    rw [preorderList] at hy
    rcases List.mem_append.mp hy with hy | hy
    · exact ⟨h, by simp, hy⟩
    · obtain ⟨h', h1, h2⟩ := ih hy
      exact ⟨h', by simp [h1], h2⟩

theorem parseSpecification_from {x : Node} {s : Specification} (hx : hasPI x = false)
    (h : parseSpecification x = .ok s) :
    ∀ y ∈ preorderList (s.children.getD []), FromNode c!"SPEC-HIERARCHY" y.info.xmlNode := by
  unfold parseSpecification at h
  obtain ⟨_, _, h⟩ := py_bind_inv h
  obtain ⟨_, _, h⟩ := py_bind_inv h
  obtain ⟨_, _, h⟩ := py_bind_inv h
  obtain ⟨ch, hch, h⟩ := py_bind_inv h
  obtain ⟨_, _, h⟩ := py_bind_inv h
  cases h
  dsimp only
  split at hch
  · cases hch; intro y hy; cases hy
  · rename_i k hk
    obtain ⟨hs, h1, h2⟩ := py_bind_inv hch
    cases h2
    intro y hy
    obtain ⟨h, hh, hy⟩ := preorderList_mem hy
    obtain ⟨x', hx', hp⟩ := mapPy_mem h1 hh
    exact parseHierarchy_from 1 x' h (children_noPI (findLast_noPI hx hk) hx') hp y hy

/-- The nodes stored in a parsed bundle. -/
theorem bundle_from {text : Str} {b : Bundle} {d : Doc} (h : parseString text = .ok b)
    (hd : readDoc text = some d) (hpi : hasDefaultNs d.root = true ∨ hasPI d.root = false) :
    (∀ r ∈ specRelationsOf b, FromNode c!"SPEC-RELATION" r.xmlNode) ∧
    (∀ s ∈ specificationsOf b, ∀ y ∈ preorderList (s.children.getD []),
      FromNode c!"SPEC-HIERARCHY" y.info.xmlNode) := by
  rcases parseString_inv h with ⟨_, h1, _⟩ | ⟨x, c, hx, hc, hp⟩
  · constructor
    · intro r hr
      unfold specRelationsOf at hr
      split at hr
      · rename_i c hc; exact absurd hc (h1 c)
      · cases hr
    · intro r hr
      unfold specificationsOf at hr
      split at hr
      · rename_i c hc; exact absurd hc (h1 c)
      · cases hr
  · have hn := contentNode_noPI hd hpi hx
    obtain ⟨rels, _, _, h3, h4, _, _, h7, _⟩ := parseContent_inv hp
    constructor
    · intro r hr
      unfold specRelationsOf at hr
      rw [hc] at hr
      dsimp only at hr
      rw [h7] at hr
      unfold parsedItems at h4
      split at h4
      · cases h4; cases hr
      · rename_i k hk
        split at h4
        · cases h4
        · rename_i rs hm
          cases h4
          simp only [Option.map_some, Option.getD_some, goodRelations] at hr
          obtain ⟨o, ho, hor⟩ := List.mem_filterMap.mp hr
          obtain ⟨y, hy, hyo⟩ := mapPy_mem hm ho
          cases o with
          | error e => cases hor
          | ok r' =>
            cases hor
            refine relation_from (children_noPI (find_noPI hn hk) hy) ?_
            unfold relationItem at hyo
            split at hyo
            · cases hyo
            · rename_i hpr; cases hyo; exact hpr
            · split at hyo <;> cases hyo
    · intro s hs
      unfold specificationsOf at hs
      rw [hc] at hs
      dsimp only at hs
      unfold parsedItems at h3
      split at h3
      · rw [← Except.ok.inj h3] at hs; cases hs
      · rename_i k hk
        split at h3
        · cases h3
        · rename_i ss hm
          rw [← Except.ok.inj h3] at hs
          obtain ⟨y, hy, hyo⟩ := mapPy_mem hm hs
          exact parseSpecification_from (children_noPI (find_noPI hn hk) hy) hyo

theorem exceptions_from {text : Str} {b : Bundle} (h : parseString text = .ok b) (e : MissingTag)
    (he : e ∈ b.exceptions) :
    ∃ s, e.node.tag = .name c!"SPEC-RELATION" ∧ stringifyNode false e.node = .ok s := by
  rcases parseString_inv h with ⟨_, _, _, h1⟩ | ⟨x, c, hx, hc, hp⟩
  · rw [h1] at he; cases he
  · obtain ⟨rels, _, _, h3, h4, _, _, _, h8, _⟩ := parseContent_inv hp
    rw [h8] at he
    unfold parsedItems at h4
    split at h4
    · cases h4; cases he
    · split at h4
      · cases h4
      · rename_i rs hm
        cases h4
        simp only [Option.getD_some, relationErrors] at he
        obtain ⟨o, ho, hor⟩ := List.mem_filterMap.mp he
        obtain ⟨y, hy, hyo⟩ := mapPy_mem hm ho
        cases o with
        | ok r => cases hor
        | error m => cases hor; exact missing_from hyo

/-! ## C65 -/

theorem tagText_of {x : Node} {t : Str} (h : x.tag = .name t) : tagText x = t := by
  cases x with
  | elem i ks =>
    simp only [Node.tag, Tag.name.injEq] at h
    exact h
  | text _ => cases h; rfl
  | comment _ => cases h
  | pi _ _ => cases h

theorem issue_described {text : Str} {b : Bundle} {d : Doc} (h : parseString text = .ok b)
    (hd : readDoc text = some d) (hpi : hasDefaultNs d.root = true ∨ hasPI d.root = false)
    (i : SemanticIssue) (hi : i ∈ semanticIssues d b) :
    ∃ f t, issueQuotes i f ∧ i.describe = .ok t ∧ c!"warning: semantic error: " ++ t = issueLine i f := by
  obtain ⟨hr, hs⟩ := bundle_from h hd hpi
  unfold semanticIssues at hi
  rcases List.mem_append.mp hi with hi | hi
  · rcases List.mem_append.mp hi with hi | hi
    · unfold fileIssues at hi
      split at hi
      · cases hi
      · rcases List.mem_append.mp hi with hi | hi
        · split at hi
          · obtain rfl := List.mem_singleton.mp hi
            exact ⟨[], _, trivial, rfl, by simp only [issueLine, List.append_assoc]; rfl⟩
          · cases hi
        · split at hi
          · cases hi
          · obtain rfl := List.mem_singleton.mp hi
            exact ⟨[], _, trivial, rfl, by simp only [issueLine, List.append_assoc]; rfl⟩
    · obtain ⟨r, hr1, hr2⟩ := List.mem_flatMap.mp hi
      obtain ⟨x, hx, ht, hp⟩ := hr r hr1
      obtain ⟨f, y, hy, _, hf⟩ := quotes_noPI (by decide) ht hp
      cases hy
      have key : ∀ part ref, i = .relationEnd r.xmlNode part ref →
          ∃ f t, issueQuotes i f ∧ i.describe = .ok t ∧ c!"warning: semantic error: " ++ t = issueLine i f := by
        rintro part ref rfl
        refine ⟨f, c!"schema error: A <" ++ c!"SPEC-RELATION" ++ c!">'s <" ++ part ++ c!"> " ++
          c!"contains a link to a non-existing <SPEC-OBJECT>: " ++ fmtOpt ref ++ c!"\n" ++
          (c!"Affected fragment:\n" ++ (c!"<" ++ c!"SPEC-RELATION" ++ f)), ⟨x, hx, ht, hf⟩, ?_, ?_⟩
        · rw [hx, SemanticIssue.describe, fragmentText, hf, tagText_of ht]
        · rw [issueLine, danglingLine]
          simp only [List.append_assoc]
          rfl
      unfold relationEnds at hr2
      rcases List.mem_append.mp hr2 with hr2 | hr2
      · split at hr2
        · exact key _ _ (List.mem_singleton.mp hr2)
        · cases hr2
      · split at hr2
        · exact key _ _ (List.mem_singleton.mp hr2)
        · cases hr2
  · obtain ⟨s, hs1, hs2⟩ := List.mem_flatMap.mp hi
    unfold hierarchyRefs at hs2
    obtain ⟨y, hy, rfl⟩ := List.mem_map.mp hs2
    obtain ⟨x, hx, ht, hp⟩ := hs s hs1 y (List.mem_filter.mp hy).1
    obtain ⟨f, y', hy', _, hf⟩ := quotes_noPI (by decide) ht hp
    cases hy'
    refine ⟨f, c!"schema error: A <SPEC-HIERARCHY>'s <SPEC-OBJECT-REF> " ++
      c!"contains a link to a non-existing <SPEC-OBJECT>: " ++ fmtOpt y.info.specObject ++ c!"\n" ++
      (c!"Affected fragment:\n" ++ (c!"<" ++ c!"SPEC-HIERARCHY" ++ f)), ⟨x, hx, ht, hf⟩, ?_, ?_⟩
    · rw [hx, SemanticIssue.describe, fragmentText, hf]
    · rw [issueLine, danglingLine]
      simp only [List.append_assoc]
      rfl

theorem missing_described {text : Str} {b : Bundle} (h : parseString text = .ok b) (m : Messages)
    (e : MissingTag) (he : e ∈ b.exceptions) :
    ∃ f t, Quotes c!"SPEC-RELATION" (some e.node) f ∧ (SchemaIssue.missingTag e).describe m = .ok t ∧
      c!"warning: " ++ t = missingLine e f := by
  obtain ⟨s, ht, hs⟩ := exceptions_from h e he
  obtain ⟨f, hf, rfl⟩ := quotes_of (by decide) ht hs
  refine ⟨f, c!"schema error: Tag <" ++ c!"SPEC-RELATION" ++ c!"> is missing a <" ++ e.tag ++
    c!"> child tag. " ++ (c!"Affected fragment:\n" ++ (c!"<" ++ c!"SPEC-RELATION" ++ f)), hf, ?_, ?_⟩
  · rw [SchemaIssue.describe, fragmentText, hs, tagText_of ht]
  · rw [missingLine]
    simp only [List.append_assoc]
    rfl

theorem mapPy_map {α β γ : Type} (g : β → Py γ) (k : α → β) (xs : List α) :
    mapPy g (xs.map k) = mapPy (fun x => g (k x)) xs := by
  induction xs with
  | nil => rfl
  | cons x xs ih => simp only [List.map_cons, mapPy, ih]

/-- **C65.** Without the strict check, the report on a file that parses has: one line per
relation without source or target, in document order, naming the missing part and quoting the
relation; one line per semantic issue, quoting the element; the counts and the note.  Exit code 0
means that there are no such issues. -/
theorem C65_report (m : Messages) (env : SchemaEnv) (root cwd : Str) (bytes : ByteArray) (s : Str) (b : Bundle)
    (d : Doc) (hs : decodeUtf8 bytes = .ok s) (h : parseString (normEol s) = .ok b)
    (hd : readDoc (normEol s) = some d) (hpi : hasDefaultNs d.root = true ∨ hasPI d.root = false) :
    ∃ r missing issues, validateCommand m true false env root (.ok bytes) cwd = (.ok (.done r), cwd) ∧
      r.lines = missing ++ issues ++ closingLines 0 b.exceptions.length (semanticIssues d b).length false ∧
      LinesFor missingLine (fun e => Quotes c!"SPEC-RELATION" (some e.node)) b.exceptions missing ∧
      LinesFor issueLine issueQuotes (semanticIssues d b) issues ∧
      r.exitCode = (if b.exceptions = [] ∧ semanticIssues d b = [] then 0 else 1) := by
  obtain ⟨d', hd', hv⟩ := C28_semantic_issues bytes s b hs h
  rw [hd] at hd'
  cases hd'
  obtain ⟨ts, h1, h2⟩ := linesFor_mapPy (missing_described h m)
  obtain ⟨us, h3, h4⟩ := linesFor_mapPy (issue_described h hd hpi)
  have hr : reportOf m false ⟨[], b.exceptions.map .missingTag, semanticIssues d b⟩ =
      .ok ⟨ts.map (c!"warning: " ++ ·) ++ us.map (c!"warning: semantic error: " ++ ·) ++
        closingLines 0 b.exceptions.length (semanticIssues d b).length false,
        if b.exceptions = [] ∧ semanticIssues d b = [] then 0 else 1⟩ := by
    unfold reportOf
    dsimp only
    rw [mapPy_map, h1]
    dsimp only
    rw [h3]
    dsimp only
    congr 2
    · unfold closingLines summaryLine noteLine
      simp only [List.map_nil, List.nil_append, List.length_nil, List.length_map, List.append_assoc]
      rfl
    · unfold ErrorBundle.hasAnyErrors
      cases b.exceptions <;> cases semanticIssues d b <;> simp
  refine ⟨⟨ts.map (c!"warning: " ++ ·) ++ us.map (c!"warning: semantic error: " ++ ·) ++
      closingLines 0 b.exceptions.length (semanticIssues d b).length false,
      if b.exceptions = [] ∧ semanticIssues d b = [] then 0 else 1⟩, _, _, ?_, rfl, h2, h4, rfl⟩
  unfold validateCommand validate
  simp only [Bool.not_true, Bool.false_eq_true, if_false, M.bind, M.lift, hv, hr, M.pure]

/-- **C65**, a file that is not well-formed or not a ReqIF document: the message, the counts, exit code 1. -/
theorem C65_not_parsed (m : Messages) (env : SchemaEnv) (root cwd : Str) (bytes : ByteArray) (s : Str) (c : XmlCause)
    (hs : decodeUtf8 bytes = .ok s) (h : parseString (normEol s) = .error (.xmlParsing c)) :
    validateCommand m true false env root (.ok bytes) cwd =
      (.ok (.done ⟨(c!"error: " ++ m.xml c) :: closingLines 1 0 0 false, 1⟩), cwd) := by
  have hp : (parseFile (none : Option (Callback Unit)) (.ok bytes) ()).1 = .error (.xmlParsing c) := by
    unfold parseFile
    simp only [M.bind, M.lift, hs]
    exact h
  have hv : validateParsed (.ok bytes) = .ok ⟨[c], [], []⟩ := by
    unfold validateParsed
    rw [hp]
  have hr : reportOf m false ⟨[c], [], []⟩ = .ok ⟨(c!"error: " ++ m.xml c) :: closingLines 1 0 0 false, 1⟩ := by
    unfold reportOf closingLines summaryLine noteLine
    simp only [List.append_assoc]
    rfl
  unfold validateCommand validate
  simp only [Bool.not_true, Bool.false_eq_true, if_false, M.bind, M.lift, hv, hr, M.pure]

/-- **C65**, a file that the strict check refuses: one schema issue, no note, exit code 1, and the
file is not parsed. -/
theorem C65_strict (m : Messages) (env : SchemaEnv) (root cwd cwd' : Str) (read : Py ByteArray)
    (h : strictCheck env root cwd = (.ok .invalid, cwd')) :
    validateCommand m true true env root read cwd =
      (.ok (.done ⟨(c!"warning: " ++ m.xsd) :: closingLines 0 1 0 true, 1⟩), cwd') := by
  have hr : reportOf m true ⟨[], [.xsd], []⟩ = .ok ⟨(c!"warning: " ++ m.xsd) :: closingLines 0 1 0 true, 1⟩ := by
    unfold reportOf closingLines summaryLine
    simp only [List.append_assoc]
    rfl
  unfold validateCommand validate
  simp only [Bool.not_true, Bool.false_eq_true, if_false, if_true, M.bind, M.lift, h, hr, M.pure]

/-- The lines printed for a text, if the report can be made. -/
def reportLines (text : Str) : Option (List Str × Nat) :=
  match parseString text with
  | .error _ => none
  | .ok b =>
    match validateBundle b with
    | .error _ => none
    | .ok e =>
      match reportOf ⟨fun _ => [], []⟩ false e with
      | .error _ => none
      | .ok r => some (r.lines, r.exitCode)

set_option maxRecDepth 20000 in
/-- Non-vacuity: the document of C28's example has no processing instruction, and its report
has four lines before the last two. -/
example : ((readDoc danglingDoc).map (fun d => hasPI d.root)) = some false ∧
    (reportLines danglingDoc).map (fun r => ((r.1.map (·.take 60)).take 2, r.1.length, r.2)) =
      some ([c!"warning: semantic error: Document is missing a valid XML dec",
        c!"warning: semantic error: schema error: A <SPEC-RELATION>'s <"], 6, 1) := by decide +kernel

set_option maxRecDepth 20000 in
/-- A document without default namespace, with a processing instruction inside a relation whose
source does not exist. -/
def piDoc : Str :=
  c!"<REQ-IF><CORE-CONTENT><REQ-IF-CONTENT><SPEC-RELATIONS><SPEC-RELATION IDENTIFIER=\"r\"><?note?><TYPE><SPEC-RELATION-TYPE-REF>t</SPEC-RELATION-TYPE-REF></TYPE><SOURCE><SPEC-OBJECT-REF>3</SPEC-OBJECT-REF></SOURCE><TARGET><SPEC-OBJECT-REF>4</SPEC-OBJECT-REF></TARGET></SPEC-RELATION></SPEC-RELATIONS></REQ-IF-CONTENT></CORE-CONTENT></REQ-IF>"

/-- How the report on a text ends. -/
inductive ReportEnd
  | noParse
  | raises (e : PyErr)
  | printed
  deriving DecidableEq

def reportEnd (text : Str) : ReportEnd :=
  match parseString text with
  | .error _ => .noParse
  | .ok b =>
    match validateBundle b with
    | .error _ => .noParse
    | .ok e =>
      match reportOf ⟨fun _ => [], []⟩ false e with
      | .error x => .raises x
      | .ok _ => .printed

set_option maxRecDepth 20000 in
/-- **C65**, the hypothesis is needed: with a processing instruction in a dangling relation and no
default namespace, the document parses but the report ends in a `ValueError`. -/
theorem C65_pi : reportEnd piDoc = .raises .valueError := by decide +kernel

set_option maxRecDepth 20000 in
/-- Non-vacuity of the other two cases. -/
example : (match parseString c!"<REQ-IF>" with
    | .error (.xmlParsing _) => true
    | _ => false) = true := by decide +kernel

example : strictCheck ⟨none, fun _ => none, fun s => (.ok .invalid, s)⟩ c!"/r" c!"/c" = (.ok .invalid, c!"/c") := rfl

end ReqIF

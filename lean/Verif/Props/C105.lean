import Verif.Proofs.Items
import Verif.Proofs.NodeEq
import Verif.Proofs.Lookup
import Verif.Model.Validate
import Verif.Props.C60Doc
/-!
# C105: items are read independently of each other

Documents are put together from items, by tools and by people.  What is read of an item does not depend on the items
around it: a document whose container holds the items of one document and then those of another is read as the first bundle with
the items of the second one after its own.  `Together` and `joined` are in `Spec/Items.lean`.
-/
namespace ReqIF.Items
open Spec

/-- **C105**: for any three documents that are the same but for one container, which in the third holds the items of the first
and then those of the second: the third is read exactly if the other two are, its bundle is theirs put together,
and if it is not read, the exception is that of one of them. -/
theorem C105_together (c : Container) (s s' t : Str) (d d' e : Doc) (hs : readDoc s = some d) (hs' : readDoc s' = some d')
    (ht : readDoc t = some e) (hd : d'.decl = d.decl) (he : e.decl = d.decl) (h : Together c d.root d'.root e.root) :
    (∃ b b', parseString s = .ok b ∧ parseString s' = .ok b' ∧ parseString t = .ok (joined c b b')) ∨
    ∃ x, parseString t = .error x ∧ (parseString s = .error x ∨ parseString s' = .error x) := by
  have hb := document_both c hd he h
  rw [← parseString_ofDoc hs, ← parseString_ofDoc hs', ← parseString_ofDoc ht] at hb
  cases hp : parseString t with
  | error x => rw [hp] at hb; exact .inr ⟨x, rfl, hb⟩
  | ok v =>
    rw [hp] at hb
    obtain ⟨a, b, h1, h2, h3⟩ := hb
    exact .inl ⟨a, b, h1, h2, by rw [h3]⟩

/-- The objects of the third document are those of the first, then those of the second, and all other lists are those of the first. -/
theorem C105_objects (a b : Bundle) (s t : Content) (ha : a.coreContent = some (some s)) (hb : b.coreContent = some (some t))
    (xs ys : List SpecObject) (hx : s.specObjects = some xs) (hy : t.specObjects = some ys) :
    (joined .specObjects a b).coreContent = some (some { s with specObjects := some (xs ++ ys) }) ∧
    (joined .specObjects a b).header = a.header ∧ (joined .specObjects a b).namespaceInfo = a.namespaceInfo ∧
    (joined .specObjects a b).lookup = { a.lookup with specObjects := indexBy SpecObject.identifier (xs ++ ys) } := by
  unfold joined
  rw [ha, hb]
  simp only [joinedContent, joinedLookup, hx, hy, joinedLists, Option.getD_some]
  exact ⟨trivial, trivial, trivial, trivial⟩

/-! ## Validation -/

/-- Everything that is found in the first lookup is found in the second. -/
def Wider (l l' : Lookup) : Prop := ∀ r, l.specObjectExists r = true → l'.specObjectExists r = true

theorem fewer_relation {l l' : Lookup} (h : Wider l l') (r : SpecRelation) : (relationIssues l' r).Sublist (relationIssues l r) := by
  unfold relationIssues
  apply List.Sublist.append
  · cases hs : l.specObjectExists r.source with
    | true => rw [h _ hs]; exact List.Sublist.refl _
    | false => cases l'.specObjectExists r.source <;> simp
  · cases hs : l.specObjectExists r.target with
    | true => rw [h _ hs]; exact List.Sublist.refl _
    | false => cases l'.specObjectExists r.target <;> simp

theorem fewer_relations {l l' : Lookup} (h : Wider l l') (rs : List SpecRelation) : (validateRelations l' rs).Sublist (validateRelations l rs) := by
  induction rs with
  | nil => exact List.Sublist.refl _
  | cons r rs ih => exact List.Sublist.append (fewer_relation h r) ih

theorem fewer_hierarchy {l l' : Lookup} (h : Wider l l') (hs : List Hierarchy) : (hierarchyIssues l' hs).Sublist (hierarchyIssues l hs) := by
  induction hs with
  | nil => exact List.Sublist.refl _
  | cons x hs ih =>
    simp only [hierarchyIssues]
    cases he : l.specObjectExists x.info.specObject with
    | true => rw [h _ he]; exact ih
    | false =>
      cases l'.specObjectExists x.info.specObject with
      | true => exact List.Sublist.cons _ ih
      | false => exact List.Sublist.cons_cons _ ih

theorem fewer_specifications {b b' : Bundle} (h : Wider b.lookup b'.lookup) (hi : ∀ i, b'.iterate i = b.iterate i) (ss : List Specification) :
    ∀ (i : Nat) (is : List SemanticIssue), validateSpecificationsFrom b i ss = .ok is →
      ∃ is', validateSpecificationsFrom b' i ss = .ok is' ∧ is'.Sublist is := by
  induction ss with
  | nil => intro i is hv; exact ⟨is, hv, List.Sublist.refl _⟩
  | cons s ss ih =>
    intro i is hv
    simp only [validateSpecificationsFrom, hi] at hv ⊢
    cases hb : b.iterate i with
    | error e => rw [hb] at hv; cases hv
    | ok hs =>
      rw [hb] at hv
      dsimp only at hv ⊢
      cases hr : validateSpecificationsFrom b (i + 1) ss with
      | error e => rw [hr] at hv; cases hv
      | ok rest =>
        rw [hr] at hv
        cases hv
        obtain ⟨rest', h1, h2⟩ := ih (i + 1) rest hr
        rw [h1]
        exact ⟨_, rfl, List.Sublist.append (fewer_hierarchy h hs) h2⟩

theorem exists_iff {l : Lookup} {xs : List SpecObject} (h : l.specObjects = indexBy SpecObject.identifier xs) (r : Str) :
    l.specObjectExists (some r) = true ↔ ∃ o ∈ xs, o.identifier = r := by
  unfold Lookup.specObjectExists
  dsimp only
  rw [h]
  unfold Dict.has
  rw [indexBy_get?, lastWith_isSome]

/-- **C105**: objects that are added never make validation complain: what is reported of the larger document was reported
of the smaller one. -/
theorem C105_validated (s s' t : Str) (d d' e : Doc) (hs : readDoc s = some d) (hs' : readDoc s' = some d')
    (ht : readDoc t = some e) (hd : d'.decl = d.decl) (he : e.decl = d.decl) (h : Together .specObjects d.root d'.root e.root)
    (b v : Bundle) (hb : parseString s = .ok b) (hv : parseString t = .ok v) (r : ErrorBundle) (hr : validateBundle b = .ok r) :
    ∃ r', validateBundle v = .ok r' ∧ r'.xmlErrors = r.xmlErrors ∧ r'.schemaErrors = r.schemaErrors ∧
      r'.semanticWarnings.Sublist r.semanticWarnings := by
  rcases C105_together .specObjects s s' t d d' e hs hs' ht hd he h with ⟨b1, b', h1, h2, h3⟩ | ⟨x, h1, -⟩
  · rw [hb] at h1
    rw [hv] at h3
    cases h1
    cases h3
    rcases parseString_inv hb with ⟨-, hc, -, -⟩ | ⟨x, c, -, hc, hp⟩
    · have : joined .specObjects b b' = b := by
        unfold joined
        split
        · rename_i h1 _; exact absurd h1 (hc _)
        · rfl
      rw [this]
      exact ⟨r, hr, rfl, rfl, List.Sublist.refl _⟩
    · obtain ⟨rels, -, -, -, -, -, -, -, -, hl⟩ := parseContent_inv hp
      have hlo : b.lookup.specObjects = indexBy SpecObject.identifier (c.specObjects.getD []) := by rw [hl]
      rcases parseString_inv h2 with ⟨-, hc', -, -⟩ | ⟨x', c', -, hc', -⟩
      · have : joined .specObjects b b' = b := by
          unfold joined
          split
          · rename_i _ h2; exact absurd h2 (hc' _)
          · rfl
        rw [this]
        exact ⟨r, hr, rfl, rfl, List.Sublist.refl _⟩
      · have hj : joined .specObjects b b' = { b with
            coreContent := some (some { c with specObjects := joinedLists c.specObjects c'.specObjects }),
            lookup := { b.lookup with specObjects := indexBy SpecObject.identifier ((joinedLists c.specObjects c'.specObjects).getD []) } } := by
          unfold joined
          rw [hc, hc']
          rfl
        rw [hj]
        generalize hw : ({ b with
            coreContent := some (some { c with specObjects := joinedLists c.specObjects c'.specObjects }),
            lookup := { b.lookup with specObjects := indexBy SpecObject.identifier ((joinedLists c.specObjects c'.specObjects).getD []) } } : Bundle) = w
        have hwide : Wider b.lookup w.lookup := by
          intro ref hx
          cases ref with
          | none => cases hx
          | some ref =>
            obtain ⟨o, ho, hi⟩ := (exists_iff hlo ref).1 hx
            refine (exists_iff (xs := (joinedLists c.specObjects c'.specObjects).getD []) (by rw [← hw]) ref).2 ⟨o, ?_, hi⟩
            cases h5 : c.specObjects with
            | none => rw [h5] at ho; cases ho
            | some xs =>
              rw [h5] at ho
              cases c'.specObjects with
              | none => exact ho
              | some ys => exact List.mem_append_left _ ho
        have hit : ∀ i, w.iterate i = b.iterate i := by
          intro i
          unfold Bundle.iterate Bundle.specifications?
          rw [← hw, hc]
        have hcw : w.coreContent = some (some { c with specObjects := joinedLists c.specObjects c'.specObjects }) := by rw [← hw]
        have hcon : ∀ is, contentIssues b = .ok is → ∃ is', contentIssues w = .ok is' ∧ is'.Sublist is := by
          intro is hi
          unfold contentIssues at hi ⊢
          rw [hc] at hi
          rw [hcw]
          dsimp only at hi ⊢
          have hrel : List.Sublist (match c.specRelations with | none => [] | some rs => validateRelations w.lookup rs)
              (match c.specRelations with | none => [] | some rs => validateRelations b.lookup rs) := by
            cases c.specRelations with
            | none => exact List.Sublist.refl _
            | some rs => exact fewer_relations hwide rs
          cases hsp : c.specifications with
          | none =>
            rw [hsp] at hi
            cases hi
            exact ⟨_, rfl, hrel⟩
          | some ss =>
            rw [hsp] at hi
            dsimp only at hi ⊢
            cases hvs : validateSpecificationsFrom b 0 ss with
            | error e => rw [hvs] at hi; cases hi
            | ok hs =>
              rw [hvs] at hi
              cases hi
              obtain ⟨hs', g1, g2⟩ := fewer_specifications hwide hit ss 0 hs hvs
              rw [g1]
              exact ⟨_, rfl, List.Sublist.append hrel g2⟩
        have hns : w.namespaceInfo = b.namespaceInfo ∧ w.exceptions = b.exceptions := by rw [← hw]; exact ⟨rfl, rfl⟩
        unfold validateBundle at hr ⊢
        rw [hns.1, hns.2]
        dsimp only at hr ⊢
        cases hci : contentIssues b with
        | error e => rw [hci] at hr; cases hr
        | ok is =>
          rw [hci] at hr
          cases hr
          obtain ⟨is', g1, g2⟩ := hcon is hci
          rw [g1]
          exact ⟨_, rfl, rfl, rfl, List.Sublist.append (List.Sublist.refl _) g2⟩
  · rw [hv] at h1; cases h1

/-! ## Concrete cases -/

/-- A document with a list of objects. -/
def manyDoc (items : Str) : Str :=
  c!"<REQ-IF xmlns=\"u\"><CORE-CONTENT><REQ-IF-CONTENT><SPEC-OBJECTS>" ++ items ++ c!"</SPEC-OBJECTS></REQ-IF-CONTENT></CORE-CONTENT></REQ-IF>"

def oneItem (name : Str) : Str :=
  c!"<SPEC-OBJECT IDENTIFIER=\"" ++ name ++ c!"\"><TYPE><SPEC-OBJECT-TYPE-REF>t</SPEC-OBJECT-TYPE-REF></TYPE></SPEC-OBJECT>"

def manyTree (items : List Node) : Node :=
  .elem ⟨some c!"u", none, c!"REQ-IF", [(none, c!"u")], [(none, c!"u")], []⟩ [
    noted c!"CORE-CONTENT" [] [noted c!"REQ-IF-CONTENT" [] [noted c!"SPEC-OBJECTS" [] items]]]

def oneNode (name : Str) : Node :=
  noted c!"SPEC-OBJECT" [(c!"IDENTIFIER", name)] [noted c!"TYPE" [] [noted c!"SPEC-OBJECT-TYPE-REF" [] [.text c!"t"]]]

set_option maxRecDepth 20000 in
theorem many_read1 : readDoc (manyDoc (oneItem c!"a")) = some ⟨none, [manyTree [oneNode c!"a"]], manyTree [oneNode c!"a"]⟩ :=
  isRootOnly_eq (by decide +kernel)

set_option maxRecDepth 20000 in
theorem many_read2 : readDoc (manyDoc (oneItem c!"b")) = some ⟨none, [manyTree [oneNode c!"b"]], manyTree [oneNode c!"b"]⟩ :=
  isRootOnly_eq (by decide +kernel)

set_option maxRecDepth 20000 in
theorem many_read3 : readDoc (manyDoc (oneItem c!"a" ++ oneItem c!"b")) =
    some ⟨none, [manyTree [oneNode c!"a", oneNode c!"b"]], manyTree [oneNode c!"a", oneNode c!"b"]⟩ :=
  isRootOnly_eq (by decide +kernel)

theorem many_together : Together .specObjects (manyTree [oneNode c!"a"]) (manyTree [oneNode c!"b"]) (manyTree [oneNode c!"a", oneNode c!"b"]) := by
  refine ⟨_, _, _, _, rfl, rfl, rfl, .part rfl ⟨_, _, _, _, rfl, rfl, rfl, .part rfl ⟨_, _, _, _, rfl, rfl, rfl,
    .part rfl ⟨_, _, _, rfl, rfl, rfl, ?_⟩ .nil⟩ .nil⟩ .nil⟩
  intro p
  rfl

/-- The hypotheses of `C105_together` are met, by documents that are read. -/
example : (∃ d d' e, readDoc (manyDoc (oneItem c!"a")) = some d ∧ readDoc (manyDoc (oneItem c!"b")) = some d' ∧
      readDoc (manyDoc (oneItem c!"a" ++ oneItem c!"b")) = some e ∧ d'.decl = d.decl ∧ e.decl = d.decl ∧
      Together .specObjects d.root d'.root e.root) :=
  ⟨_, _, _, many_read1, many_read2, many_read3, rfl, rfl, many_together⟩

set_option maxRecDepth 20000 in
example : ((parseString (manyDoc (oneItem c!"a" ++ oneItem c!"b"))).toOption.bind fun b => b.coreContent.bind fun c => c.bind fun c =>
    c.specObjects.map (List.map (·.identifier))) = some [c!"a", c!"b"] := by decide +kernel

/-! ## Namespaces -/

/-- An object with an XHTML value. -/
def richItem (name value : Str) : Str :=
  c!"<SPEC-OBJECT IDENTIFIER=\"" ++ name ++ c!"\"><VALUES><ATTRIBUTE-VALUE-XHTML><DEFINITION><ATTRIBUTE-DEFINITION-XHTML-REF>d" ++
  c!"</ATTRIBUTE-DEFINITION-XHTML-REF></DEFINITION><THE-VALUE>" ++ value ++ c!"</THE-VALUE></ATTRIBUTE-VALUE-XHTML></VALUES>" ++
  c!"<TYPE><SPEC-OBJECT-TYPE-REF>t</SPEC-OBJECT-TYPE-REF></TYPE></SPEC-OBJECT>"

/-- A document whose root declares a prefix for XHTML. -/
def richDoc (items : Str) : Str :=
  c!"<REQ-IF xmlns=\"u\" xmlns:h=\"http://www.w3.org/1999/xhtml\"><CORE-CONTENT><REQ-IF-CONTENT><SPEC-OBJECTS>" ++ items ++
  c!"</SPEC-OBJECTS></REQ-IF-CONTENT></CORE-CONTENT></REQ-IF>"

/-- The value of the first object. -/
def firstValue (s : Str) : Option AttrValue :=
  (parseString s).toOption.bind fun b => b.coreContent.bind fun c => c.bind fun c => c.specObjects.bind fun os =>
    os.head?.bind fun o => o.attributes.head?.map (·.value)

/-- An object that declares the namespace of its value itself. -/
def ownItem : Str := richItem c!"a" c!"<p xmlns=\"http://www.w3.org/1999/xhtml\">x</p>y"
/-- An object that uses the prefix of the root. -/
def usingItem : Str := richItem c!"b" c!"<h:p>z</h:p>"

set_option maxRecDepth 20000 in
/-- **C105**, why the two lists of items have to use the same declarations: the value of the first object depends on whether the
object after it uses the prefix of the root.  If no object does, the declaration is dropped, and with no prefix in force the text
behind an element is read twice. -/
theorem C105_neighbour :
    firstValue (richDoc (ownItem ++ usingItem)) = some (.str c!"<p xmlns=\"http://www.w3.org/1999/xhtml\">x</p>y") ∧
    firstValue (richDoc ownItem) = some (.str c!"<p xmlns=\"http://www.w3.org/1999/xhtml\">x</p>yy") := by
  decide +kernel

end ReqIF.Items

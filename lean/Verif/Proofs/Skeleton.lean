import Verif.Proofs.Accepted
/-!
# Proofs about what does not matter to the parser
-/
namespace ReqIF.Accept
open Spec

theorem skeletons_map (ns : List Node) : skeletons ns = ns.map skeleton := by
  induction ns with
  | nil => rfl
  | cons n ns ih => simp only [skeletons, List.map_cons, ih]

theorem skel_isText (n : Node) : (skeleton n).isText = n.isText := by cases n <;> rfl

theorem skel_tag (n : Node) : (skeleton n).tag = n.tag := by cases n <;> rfl

theorem skel_nsmap (n : Node) : (skeleton n).nsmap = n.nsmap := by cases n <;> rfl

theorem skel_kids (n : Node) : (skeleton n).kids = n.kids.map skeleton := by
  cases n <;> first | rfl | exact skeletons_map _

theorem skel_children (n : Node) : (skeleton n).children = n.children.map skeleton := by
  unfold Node.children
  rw [skel_kids, List.filter_map]
  congr 1
  apply List.filter_congr
  intro k _
  simp [skel_isText]

theorem skel_find (n : Node) (t : Str) : (skeleton n).find t = (n.find t).map skeleton := by
  unfold Node.find
  rw [skel_kids, List.find?_map]
  congr 2
  funext k
  simp [skel_isText, skel_tag]

theorem skel_text (n : Node) : (skeleton n).text? = none ↔ n.text? = none := by
  cases n with
  | elem i ks =>
    cases ks with
    | nil => rfl
    | cons k ks => cases k <;> simp [skeleton, skeletons, Node.text?]
  | text s => rfl
  | comment s => simp [skeleton, Node.text?]
  | pi a b => simp [skeleton, Node.text?]

theorem blank_key (a : Attr) : (blank a).key = a.key := by unfold blank; split <;> rfl

theorem find_blank (as : List Attr) (k : Str) : (as.map blank).find? (fun a => a.key == k) = (as.find? (fun a => a.key == k)).map blank := by
  rw [List.find?_map]
  congr 2
  funext a
  simp [blank_key]

theorem skel_attrs (n : Node) : (skeleton n).attrs = n.attrs.map blank := by cases n <;> rfl

theorem skel_has (n : Node) (k : Str) : Has (skeleton n) k ↔ Has n k := by
  unfold Has Node.attr?
  rw [skel_attrs, find_blank]
  cases n.attrs.find? (fun a => a.key == k) <;> simp

theorem skel_accuracy (n : Node) : (skeleton n).attr? c!"ACCURACY" = n.attr? c!"ACCURACY" := by
  unfold Node.attr?
  rw [skel_attrs, find_blank]
  cases h : n.attrs.find? (fun a => a.key == c!"ACCURACY") with
  | none => rfl
  | some a =>
    have hk : a.key = c!"ACCURACY" := by simpa using List.find?_some h
    have hb : blank a = a := by
      unfold blank
      rw [if_pos]
      unfold Attr.key clark at hk
      split at hk
      · rename_i hn; exact ⟨hn, hk⟩
      · cases hk
    simp [hb]

mutual
theorem skel_pi : ∀ n : Node, hasPI (skeleton n) = hasPI n
  | .text _ => rfl
  | .comment _ => rfl
  | .pi _ _ => rfl
  | .elem i ks => by simp only [skeleton, hasPI]; exact skel_pis ks
theorem skel_pis : ∀ ns : List Node, hasPIs (skeletons ns) = hasPIs ns
  | [] => rfl
  | n :: ns => by simp only [skeletons, hasPIs, skel_pi n, skel_pis ns]
end

mutual
theorem skel_comment : ∀ n : Node, hasComment (skeleton n) = hasComment n
  | .text _ => rfl
  | .comment _ => rfl
  | .pi _ _ => rfl
  | .elem i ks => by simp only [skeleton, hasComment]; exact skel_comments ks
theorem skel_comments : ∀ ns : List Node, hasComments (skeletons ns) = hasComments ns
  | [] => rfl
  | n :: ns => by simp only [skeletons, hasComments, skel_comment n, skel_comments ns]
end

/-! ## The vocabulary -/

theorem skel_called (n : Node) (s : Str) : Called (skeleton n) s ↔ Called n s := by unfold Called; rw [skel_tag]

theorem skel_like (n : Node) (s : Str) : CalledLike (skeleton n) s ↔ CalledLike n s := by unfold CalledLike; rw [skel_tag]

theorem skel_needs (n : Node) (s : Str) (P : Node → Prop) : Needs (skeleton n) s P ↔ Needs n s (fun c => P (skeleton c)) := by
  unfold Needs
  rw [skel_find]
  cases n.find s <;> simp

theorem skel_may (n : Node) (s : Str) (P : Node → Prop) : May (skeleton n) s P ↔ May n s (fun c => P (skeleton c)) := by
  unfold May
  rw [skel_find]
  cases n.find s <;> simp

theorem skel_each (n : Node) (P : Node → Prop) : Each (skeleton n) P ↔ Each n (fun c => P (skeleton c)) := by
  unfold Each
  rw [skel_children]
  simp

theorem skel_first (n : Node) (P : Node → Prop) : First (skeleton n) P ↔ First n (fun c => P (skeleton c)) := by
  unfold First
  rw [skel_children]
  cases n.children <;> simp

theorem skel_empty (n : Node) : Empty (skeleton n) ↔ Empty n := by
  unfold Empty
  rw [skel_children, skel_text, List.map_eq_nil_iff]

theorem skel_anything (n : Node) : Anything (skeleton n) ↔ Anything n := Iff.rfl

theorem skel_refers (n : Node) (s t : Str) : Refers (skeleton n) s t ↔ Refers n s t := by
  simp only [Refers, skel_needs, skel_anything]

/-! ## The requirements -/

theorem skel_enumValue (x : Node) : EnumValueOk (skeleton x) ↔ EnumValueOk x := by
  simp only [EnumValueOk, skel_has, skel_needs]

theorem skel_dataType (x : Node) : DataTypeOk (skeleton x) ↔ DataTypeOk x := by
  simp only [DataTypeOk, skel_has, skel_called, skel_may, skel_each, skel_enumValue, skel_accuracy]

theorem skel_namespaced (x : Node) : NamespacedOk (skeleton x) ↔ NamespacedOk x := by
  simp only [NamespacedOk, skel_nsmap, skel_comment, skel_pi]

theorem skel_definition (x : Node) : DefinitionOk (skeleton x) ↔ DefinitionOk x := by
  simp only [DefinitionOk, BodyOk, DefaultOk, FullDefaultOk, skel_has, skel_called, skel_may, skel_needs, skel_refers, skel_empty,
    skel_namespaced, skel_anything]

theorem skel_specType (x : Node) : SpecTypeOk (skeleton x) ↔ SpecTypeOk x := by
  simp only [SpecTypeOk, DefinitionsOk, skel_tag, skel_has, skel_called, skel_may, skel_each, skel_definition]

theorem skel_xhtmlValue (x : Node) : XhtmlValueOk (skeleton x) ↔ XhtmlValueOk x := by
  simp only [XhtmlValueOk, skel_needs, skel_refers, skel_pi, skel_comment, skel_nsmap]

theorem skel_firstValue (x : Node) : FirstValueOk (skeleton x) ↔ FirstValueOk x := by
  simp only [FirstValueOk, skel_has, skel_first, skel_anything]

theorem skel_value (x : Node) : ValueOk (skeleton x) ↔ ValueOk x := by
  simp only [ValueOk, SimpleValueOk, skel_called, skel_has, skel_refers, skel_needs, skel_anything, skel_xhtmlValue, skel_firstValue]

theorem skel_values (x : Node) : ValuesOk (skeleton x) ↔ ValuesOk x := by
  simp only [ValuesOk, skel_may, skel_each, skel_tag, skel_value]

theorem skel_specObject (x : Node) : SpecObjectOk (skeleton x) ↔ SpecObjectOk x := by
  simp only [SpecObjectOk, skel_tag, skel_like, skel_has, skel_refers, skel_values]

theorem skel_relationValues (x : Node) : RelationValuesOk (skeleton x) ↔ RelationValuesOk x := by
  unfold RelationValuesOk
  rw [skel_may]
  unfold May
  refine forall_congr' fun c => imp_congr_right fun _ => ?_
  dsimp only
  rw [skel_children]
  cases c.children with
  | nil => simp
  | cons v rest =>
    have hone : ∀ (v : Node) (rest : List Node) (P : Node → Prop), (∀ w r, v :: rest = w :: r → P w) ↔ P v := fun v rest P =>
      ⟨fun h => h v rest rfl, fun h w r e => by cases e; exact h⟩
    rw [List.map_cons, hone, hone]
    simp only [skel_called, skel_firstValue, skel_xhtmlValue]

theorem skel_relation (x : Node) : RelationOk (skeleton x) ↔ RelationOk x := by
  simp only [RelationOk, skel_called, skel_needs, skel_anything, skel_find, Option.map_eq_none_iff, skel_pi, skel_has, skel_refers,
    skel_relationValues]

theorem skel_relationGroup (x : Node) : RelationGroupOk (skeleton x) ↔ RelationGroupOk x := by
  simp only [RelationGroupOk, skel_like, skel_has]

theorem hierarchy_iff (x : Node) : HierarchyOk x ↔ Called x c!"SPEC-HIERARCHY" ∧ Has x c!"IDENTIFIER" ∧
    Refers x c!"OBJECT" c!"SPEC-OBJECT-REF" ∧ May x c!"CHILDREN" (fun c => Each c HierarchyOk) :=
  ⟨fun h => by cases h with | mk h1 h2 h3 h4 => exact ⟨h1, h2, h3, h4⟩, fun h => .mk h.1 h.2.1 h.2.2.1 h.2.2.2⟩

theorem skel_hierarchy (x : Node) : HierarchyOk (skeleton x) ↔ HierarchyOk x := by
  rw [hierarchy_iff, hierarchy_iff x]
  simp only [skel_called, skel_has, skel_refers, skel_may, skel_each]
  refine and_congr_right fun _ => and_congr_right fun _ => and_congr_right fun _ => ?_
  unfold May Each
  refine forall_congr' fun c => forall_congr' fun hc => forall_congr' fun k => forall_congr' fun hk => ?_
  have := hierarchy_lt hc hk
  exact skel_hierarchy k
termination_by sizeOf x

theorem skel_specification (x : Node) : SpecificationOk (skeleton x) ↔ SpecificationOk x := by
  unfold SpecificationOk
  rw [← lastChild_iff (skeleton x) (fun c => Each c HierarchyOk), ← lastChild_iff x (fun c => Each c HierarchyOk)]
  simp only [skel_like, skel_has, skel_values]
  have : findLast (skeleton x) c!"CHILDREN" = (findLast x c!"CHILDREN").map skeleton := by
    unfold findLast
    rw [skel_children, List.filter_map, List.getLast?_map]
    congr 3
    funext k
    simp [skel_tag]
  rw [this]
  cases findLast x c!"CHILDREN" with
  | none => simp
  | some c => simp [skel_each, skel_hierarchy]

theorem skel_content (x : Node) : ContentOk (skeleton x) ↔ ContentOk x := by
  simp only [ContentOk, skel_may, skel_each, skel_dataType, skel_specType, skel_specification, skel_relation, skel_specObject,
    skel_relationGroup]

theorem skel_root (x : Node) : RootOk (skeleton x) ↔ RootOk x := by
  simp only [RootOk, HeaderOk, skel_called, skel_may, skel_needs, skel_has, skel_content]
  exact Iff.rfl

/-! ## Removal of namespaces -/

theorem blank_ns (a : Attr) : (blank a).ns = a.ns := by unfold blank; split <;> rfl
theorem blank_pfx (a : Attr) : (blank a).pfx = a.pfx := by unfold blank; split <;> rfl

mutual
theorem skel_strip (f : Bool) : ∀ n : Node, stripTags f (skeleton n) = pyMap skeleton (stripTags f n)
  | .text _ => by simp [skeleton, stripTags, pyMap]
  | .comment _ => by simp [skeleton, stripTags, pyMap]
  | .pi _ _ => by cases f <;> simp [skeleton, stripTags, pyMap]
  | .elem i ks => by
    have ih := skel_strips f ks
    simp only [skeleton, stripTags, ih]
    cases stripTagsList f ks with
    | error e => rfl
    | ok ks' =>
      simp only [pyMap]
      show (if (!f && containsStr xhtmlNs i.tag) = true then _ else _) = _
      split <;> simp [skeleton]
theorem skel_strips (f : Bool) : ∀ ns : List Node, stripTagsList f (skeletons ns) = pyMap skeletons (stripTagsList f ns)
  | [] => rfl
  | n :: ns => by
    have h1 := skel_strip f n
    have h2 := skel_strips f ns
    simp only [skeletons, stripTagsList, h1, h2]
    cases stripTags f n with
    | error e => rfl
    | ok n' => cases stripTagsList f ns <;> rfl
end

theorem skel_infoUses (p : Option Str) (i : Info) : Info.usesPfx p { i with attrs := i.attrs.map blank } = Info.usesPfx p i := by
  unfold Info.usesPfx
  simp only [List.any_map]
  congr 2
  funext a
  simp [blank_ns, blank_pfx]

mutual
theorem skel_uses (p : Option Str) : ∀ (n : Node) (b : Bool), (skeleton n).usesPfx p b = n.usesPfx p b
  | .text _, b => rfl
  | .comment _, b => rfl
  | .pi _ _, b => rfl
  | .elem i ks, b => by
    simp only [skeleton, Node.usesPfx, skel_infoUses, skel_usesAll p ks]
    rfl
theorem skel_usesAll (p : Option Str) : ∀ ns : List Node, usesPfxList p (skeletons ns) = usesPfxList p ns
  | [] => rfl
  | n :: ns => by simp only [skeletons, usesPfxList, skel_uses p n, skel_usesAll p ns]
end

mutual
theorem skel_cleanup : ∀ (n : Node) (m : NsMap), cleanup m (skeleton n) = skeleton (cleanup m n)
  | .text _, m => rfl
  | .comment _, m => rfl
  | .pi _ _, m => rfl
  | .elem i ks, m => by
    have h : ∀ p, Node.usesPfx p false (.elem { i with attrs := i.attrs.map blank } (skeletons ks)) = Node.usesPfx p false (.elem i ks) :=
      fun p => skel_uses p (.elem i ks) false
    simp only [skeleton, cleanup, h, skel_cleanups ks]
theorem skel_cleanups : ∀ (ns : List Node) (m : NsMap), cleanupList m (skeletons ns) = skeletons (cleanupList m ns)
  | [], m => rfl
  | n :: ns, m => by simp only [skeletons, cleanupList, skel_cleanup n, skel_cleanups ns]
end

theorem skel_stripped (n : Node) : strippedRoot (skeleton n) = pyMap skeleton (strippedRoot n) := by
  unfold strippedRoot
  rw [skel_nsmap]
  cases NsMap.get? n.nsmap none with
  | none => rfl
  | some u =>
    simp only [stripNamespace, skel_strip]
    cases stripTags false n with
    | error e => rfl
    | ok r => simp only [pyMap, skel_cleanup]

end ReqIF.Accept

import Verif.Props.C109
import Verif.Props.C77
/-!
# C109: the order of the items, in what is written

Items in another order are written as the same pieces in another order.
-/
namespace ReqIF
open Spec Jumbled

theorem joinPy_perm {l l' : List (Py Str)} (h : l.Perm l') : ∀ {t : Str}, joinPy l = .ok t → ∃ t', joinPy l' = .ok t' ∧ t'.length = t.length := by
  have step : ∀ {a : Py Str} {r : List (Py Str)} {t : Str}, joinPy (a :: r) = .ok t → ∃ s u, a = .ok s ∧ joinPy r = .ok u ∧ t = s ++ u := by
    intro a r t h
    cases a with
    | error e => cases h
    | ok s =>
      simp only [joinPy] at h
      cases hr : joinPy r with
      | error e => rw [hr] at h; cases h
      | ok u => rw [hr] at h; cases h; exact ⟨s, u, rfl, rfl, rfl⟩
  induction h with
  | nil => intro t h; exact ⟨t, h, rfl⟩
  | cons a _ ih =>
    intro t h
    obtain ⟨s, u, rfl, h2, rfl⟩ := step h
    obtain ⟨u', h3, h4⟩ := ih h2
    exact ⟨s ++ u', by simp only [joinPy, h3], by simp [h4]⟩
  | swap a b l =>
    intro t h
    obtain ⟨s, u, rfl, h2, rfl⟩ := step h
    obtain ⟨s', u', rfl, h3, rfl⟩ := step h2
    exact ⟨s' ++ (s ++ u'), by simp only [joinPy, h3], by simp only [List.length_append]; omega⟩
  | trans _ _ ih1 ih2 =>
    intro t h
    obtain ⟨u, h1, h2⟩ := ih1 h
    obtain ⟨v, h3, h4⟩ := ih2 h1
    exact ⟨v, h3, h4.trans h2⟩

/-- Lists that are both there or both missing, with the same items. -/
theorem held_both {β : Type} {c : Items.Container} {x x' : Node} (h : SameHeld c x x') {f : List Node → Py (List β)}
    {o o' : Option (List β)} (ho : parsedItems x c.tag f = .ok o) (ho' : parsedItems x' c.tag f = .ok o') : o.isSome = o'.isSome := by
  unfold parsedItems at ho ho'
  rcases h with ⟨h1, h2⟩ | ⟨a, a', h1, h2, -⟩
  · rw [h1] at ho
    rw [h2] at ho'
    cases ho
    cases ho'
    rfl
  · rw [h1] at ho
    rw [h2] at ho'
    dsimp only at ho ho'
    cases hx : f a.children with
    | error e => rw [hx] at ho; cases ho
    | ok ys =>
      cases hx' : f a'.children with
      | error e => rw [hx'] at ho'; cases ho'
      | ok ys' =>
        rw [hx] at ho
        rw [hx'] at ho'
        cases ho
        cases ho'
        rfl

theorem pieces_of {k : Container} {c c' : Content} (h1 : (k.items c).isSome = (k.items c').isSome)
    (h2 : ((k.items c).getD []).Perm ((k.items c').getD [])) : (containerPieces k c).Perm (containerPieces k c') := by
  unfold containerPieces
  cases h : k.items c with
  | none =>
    cases h' : k.items c' with
    | none => exact List.Perm.refl _
    | some ys => rw [h, h'] at h1; cases h1
  | some xs =>
    cases h' : k.items c' with
    | none => rw [h, h'] at h1; cases h1
    | some ys =>
      rw [h, h'] at h2
      exact ((List.Perm.refl _).append (List.Perm.map _ h2)).append (List.Perm.refl _)

/-- **C109**, writing: bundles read from documents with the same items in another order are written as the same pieces, list by list; if
also the root tag, the header and the last part are the same, then both are written or none, and the texts have the same size. -/
theorem C109_written (s s' : Str) (b b' : Bundle) (h : parseString s = .ok b) (h' : parseString s' = .ok b') (x x' : Node)
    (hx : contentNode s = some x) (hx' : contentNode s' = some x') (hi : SameItems x x') :
    ∃ c c', b.coreContent = some (some c) ∧ b'.coreContent = some (some c') ∧
      (∀ k, (containerPieces k c).Perm (containerPieces k c')) ∧
      (b.namespaceInfo = b'.namespaceInfo → b.header = b'.header → b.toolExtensionsTagExists = b'.toolExtensionsTagExists →
        ∀ n, (∃ t, unparse b = .ok t ∧ t.length = n) ↔ ∃ t', unparse b' = .ok t' ∧ t'.length = n) := by
  obtain ⟨c, h1, h2⟩ := parsed_content h hx
  obtain ⟨c', h1', h2'⟩ := parsed_content h' hx'
  obtain ⟨rs, d, t, p, r, o, g, gr, -⟩ := parseContent_inv h2
  obtain ⟨rs', d', t', p', r', o', g', gr', -⟩ := parseContent_inv h2'
  have hr : (rs.getD []).Perm (rs'.getD []) := held_perm (hi .specRelations) mapPy_perm r r'
  have hrs : rs.isSome = rs'.isSome := held_both (hi .specRelations) r r'
  have hall : ∀ k, (containerPieces k c).Perm (containerPieces k c') := by
    intro k
    cases k with
    | dataTypes => exact pieces_of (held_both (hi .dataTypes) d d') (held_perm (hi .dataTypes) mapPy_perm d d')
    | specTypes => exact pieces_of (held_both (hi .specTypes) t t') (held_perm (hi .specTypes) filterMapPy_perm t t')
    | specObjects => exact pieces_of (held_both (hi .specObjects) o o') (held_perm (hi .specObjects) filterMapPy_perm o o')
    | specRelations =>
      have hg : ∀ (o : Option (List (Except MissingTag SpecRelation))), (o.map goodRelations).getD [] = goodRelations (o.getD []) := by
        intro o; cases o <;> rfl
      refine pieces_of (k := .specRelations) ?_ ?_
      · simp only [Container.items, gr, gr', Option.isSome_map, hrs]
      · simp only [Container.items, gr, gr', hg]
        exact hr.filterMap _
    | specifications =>
      exact pieces_of (held_both (hi .specifications) p p') (held_perm (hi .specifications) mapPy_perm p p')
    | specRelationGroups =>
      exact pieces_of (held_both (hi .relationGroups) g g') (held_perm (hi .relationGroups) mapPy_perm g g')
  refine ⟨c, c', h1, h1', hall, ?_⟩
  intro e1 e2 e3 n
  rw [C77_pieces, C77_pieces]
  suffices hp : (pieces b).Perm (pieces b') by
    constructor
    · rintro ⟨t, ht, rfl⟩
      exact joinPy_perm hp ht
    · rintro ⟨t, ht, rfl⟩
      exact joinPy_perm hp.symm ht
  have hc : (contentPieces c).Perm (contentPieces c') := by
    unfold contentPieces
    refine ((List.Perm.refl _).append ?_).append (List.Perm.refl _)
    generalize containers = ks
    induction ks with
    | nil => exact List.Perm.refl _
    | cons k ks ih => rw [List.flatMap_cons, List.flatMap_cons]; exact (hall k).append ih
  unfold pieces
  rw [h1, h1', e1, e2, e3]
  refine ((List.Perm.append (List.Perm.refl _) ?_).append (List.Perm.refl _)).append (List.Perm.refl _)
  exact ((List.Perm.refl _).append hc).append (List.Perm.refl _)

/-- An object with an empty list of values. -/
def jumbledWritable (id type : Str) : Node :=
  jumbledElem c!"SPEC-OBJECT" [⟨none, none, c!"IDENTIFIER", id⟩]
    [jumbledElem c!"VALUES" [] [], jumbledElem c!"TYPE" [] [jumbledElem c!"SPEC-OBJECT-TYPE-REF" [] [.text type]]]

/-- What is read from a document with only this root. -/
def bundleOfRoot (n : Node) : Py Bundle := (parseReqif (none : Option (Callback Unit)) ⟨none, [n], n⟩ ()).1

/-- The size of what is written for it. -/
def writtenSize (n : Node) : Option Nat :=
  match bundleOfRoot n with
  | .error _ => none
  | .ok b => match unparse b with
    | .error _ => none
    | .ok t => some t.length

/-- The parts around the content: the root tag if there is no header and nothing behind the content. -/
def aroundContent (n : Node) : Option NamespaceInfo :=
  match bundleOfRoot n with
  | .error _ => none
  | .ok b => if b.header.isNone && !b.toolExtensionsTagExists then some b.namespaceInfo else none

set_option maxRecDepth 20000 in
/-- Two documents of `jumbled_docs`: the parts around the content are the same, and both are written, with the same size. -/
example : (aroundContent (jumbledRoot [jumbledWritable c!"o" c!"t", jumbledWritable c!"p" c!"u"])).isSome = true ∧
    aroundContent (jumbledRoot [jumbledWritable c!"o" c!"t", jumbledWritable c!"p" c!"u"]) =
      aroundContent (jumbledRoot [jumbledWritable c!"p" c!"u", jumbledWritable c!"o" c!"t"]) ∧
    (writtenSize (jumbledRoot [jumbledWritable c!"o" c!"t", jumbledWritable c!"p" c!"u"])).isSome = true ∧
    writtenSize (jumbledRoot [jumbledWritable c!"o" c!"t", jumbledWritable c!"p" c!"u"]) =
      writtenSize (jumbledRoot [jumbledWritable c!"p" c!"u", jumbledWritable c!"o" c!"t"]) := by
  decide +kernel

end ReqIF

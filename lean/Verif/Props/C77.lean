import Verif.Spec.Segments
import Verif.Props.C75
import Verif.Props.C18_23
import Verif.Proofs.Progress
/-!
# C77: edits are local
-/
namespace ReqIF
open Spec

/-! ## Pieces -/

theorem joinPy_append (xs ys : List (Py Str)) : joinPy (xs ++ ys) = match joinPy xs with
    | .error e => .error e
    | .ok s => match joinPy ys with
      | .error e => .error e
      | .ok t => .ok (s ++ t) := by
  induction xs with
  | nil =>
    show joinPy ys = match joinPy ys with
      | .error e => .error e
      | .ok t => .ok t
    cases joinPy ys <;> rfl
  | cons x xs ih =>
    cases x with
    | error e => rfl
    | ok s =>
      rw [List.cons_append, joinPy, joinPy, ih]
      cases joinPy xs with
      | error e => rfl
      | ok t =>
        dsimp only
        cases joinPy ys with
        | error e => rfl
        | ok u => dsimp only; rw [List.append_assoc]

theorem foldPy_join {α : Type} (f : α → Py Str) : ∀ (xs : List α) (out : Str), foldPy (printStep f) out xs =
    match joinPy (xs.map f) with
    | .error e => .error e
    | .ok t => .ok (out ++ t)
  | [], out => by simp [foldPy, joinPy]
  | x :: xs, out => by
    rw [foldPy, List.map_cons]
    unfold printStep
    cases f x with
    | error e => rfl
    | ok s =>
      dsimp only
      have := foldPy_join f xs (out ++ s)
      unfold printStep at this
      rw [this, joinPy]
      cases joinPy (xs.map f) with
      | error e => rfl
      | ok t => dsimp only; rw [List.append_assoc]

theorem unparseContainer_join {α : Type} (tag : Str) (f : α → Py Str) (items : Option (List α)) :
    unparseContainer (none : Option (Callback Unit)) tag f items () =
      (joinPy (match items with
        | none => []
        | some xs => [.ok (lineOpen 6 tag)] ++ xs.map f ++ [.ok (lineClose 6 tag)]), ()) := by
  cases items with
  | none => rfl
  | some xs =>
    unfold unparseContainer trackedLoop
    simp only [M.bind, trackedGo_none, foldPy_join]
    rw [List.append_assoc, List.singleton_append, joinPy, joinPy_append]
    cases joinPy (xs.map f) with
    | error e => rfl
    | ok t => simp [joinPy, M.pure]

theorem containerPieces_all (c : Content) : unparseContent (none : Option (Callback Unit)) c () = (joinPy (contentPieces c), ()) := by
  have u1 : unparseContainer (none : Option (Callback Unit)) c!"DATATYPES" (fun d => .ok (unparseDataType d)) c.dataTypes () = (joinPy (containerPieces .dataTypes c), ()) := by
    rw [unparseContainer_join]; unfold containerPieces Container.items; dsimp only; cases c.dataTypes <;> rfl
  have u2 : unparseContainer (none : Option (Callback Unit)) c!"SPEC-TYPES" unparseSpecType c.specTypes () = (joinPy (containerPieces .specTypes c), ()) := by
    rw [unparseContainer_join]; unfold containerPieces Container.items; dsimp only; cases c.specTypes <;> rfl
  have u3 : unparseContainer (none : Option (Callback Unit)) c!"SPEC-OBJECTS" unparseSpecObject c.specObjects () = (joinPy (containerPieces .specObjects c), ()) := by
    rw [unparseContainer_join]; unfold containerPieces Container.items; dsimp only; cases c.specObjects <;> rfl
  have u4 : unparseContainer (none : Option (Callback Unit)) c!"SPEC-RELATIONS" unparseSpecRelation c.specRelations () = (joinPy (containerPieces .specRelations c), ()) := by
    rw [unparseContainer_join]; unfold containerPieces Container.items; dsimp only; cases c.specRelations <;> rfl
  have u5 : unparseContainer (none : Option (Callback Unit)) c!"SPECIFICATIONS" unparseSpecification c.specifications () = (joinPy (containerPieces .specifications c), ()) := by
    rw [unparseContainer_join]; unfold containerPieces Container.items; dsimp only; cases c.specifications <;> rfl
  have u6 : unparseContainer (none : Option (Callback Unit)) c!"SPEC-RELATION-GROUPS" (fun g => .ok (unparseRelationGroup g)) c.specRelationGroups () = (joinPy (containerPieces .specRelationGroups c), ()) := by
    rw [unparseContainer_join]; unfold containerPieces Container.items; dsimp only; cases c.specRelationGroups <;> rfl
  unfold unparseContent contentPieces containers
  simp only [List.flatMap_cons, List.flatMap_nil, List.append_nil, List.append_assoc, List.singleton_append, joinPy, joinPy_append, M.bind]
  rw [u1]
  cases joinPy (containerPieces .dataTypes c) with
  | error e => rfl
  | ok t1 =>
  dsimp only
  rw [u2]
  cases joinPy (containerPieces .specTypes c) with
  | error e => rfl
  | ok t2 =>
  dsimp only
  rw [u3]
  cases joinPy (containerPieces .specObjects c) with
  | error e => rfl
  | ok t3 =>
  dsimp only
  rw [u4]
  cases joinPy (containerPieces .specRelations c) with
  | error e => rfl
  | ok t4 =>
  dsimp only
  rw [u5]
  cases joinPy (containerPieces .specifications c) with
  | error e => rfl
  | ok t5 =>
  dsimp only
  rw [u6]
  cases joinPy (containerPieces .specRelationGroups c) with
  | error e => rfl
  | ok t6 =>
  dsimp only
  simp [M.pure]

/-- **C77.** The printed document is made of its pieces: one per item, in order. -/
theorem C77_pieces (b : Bundle) : unparse b = joinPy (pieces b) := by
  unfold unparse unparseM pieces
  have e : ∀ core, unparseCore (none : Option (Callback Unit)) core () = (joinPy (corePieces core), ()) := by
    intro core
    unfold unparseCore corePieces
    match core with
    | none => rfl
    | some none => rfl
    | some (some c) =>
      dsimp only
      simp only [M.bind, containerPieces_all, List.append_assoc, List.singleton_append, joinPy, joinPy_append]
      cases joinPy (contentPieces c) with
      | error e => rfl
      | ok t => simp [M.pure]
  simp only [M.bind, M.lift, e]
  cases b.header with
  | none =>
    simp only [optPy, List.append_assoc, List.cons_append, List.nil_append, joinPy, joinPy_append]
    cases unparseNamespaceInfo b.namespaceInfo with
    | error e => rfl
    | ok tag =>
      dsimp only [joinPy]
      cases hcore : joinPy (corePieces b.coreContent) with
      | error e => simp [joinPy, joinPy_append, hcore]
      | ok t =>
        dsimp only
        cases b.toolExtensionsTagExists <;> simp [joinPy, joinPy_append, M.pure, hcore]
  | some h =>
    simp only [optPy, List.append_assoc, List.cons_append, List.nil_append, joinPy, joinPy_append]
    cases unparseNamespaceInfo b.namespaceInfo with
    | error e => rfl
    | ok tag =>
      dsimp only [joinPy]
      cases unparseHeader h with
      | error e => rfl
      | ok hd =>
        dsimp only [joinPy]
        cases hcore : joinPy (corePieces b.coreContent) with
        | error e => simp [joinPy, joinPy_append, hcore]
        | ok t =>
          dsimp only
          cases b.toolExtensionsTagExists <;> simp [joinPy, joinPy_append, M.pure, hcore]

/-! ## Edits of the lists -/

theorem put_get (k : Container) (c : Content) (xs : List k.Item) : k.items (k.put c xs) = some xs := by cases k <;> rfl

theorem put_other {k j : Container} (h : j ≠ k) (c : Content) (xs : List k.Item) : containerPieces j (k.put c xs) = containerPieces j c := by
  cases k <;> cases j <;> first | rfl | exact absurd rfl h

theorem containers_split (k : Container) : ∃ ks js, containers = ks ++ k :: js ∧ (∀ j ∈ ks, j ≠ k) ∧ ∀ j ∈ js, j ≠ k := by
  cases k
  · exact ⟨[], _, rfl, by simp, by simp⟩
  · exact ⟨[_], _, rfl, by simp, by simp⟩
  · exact ⟨[_, _], _, rfl, by simp, by simp⟩
  · exact ⟨[_, _, _], _, rfl, by simp, by simp⟩
  · exact ⟨[_, _, _, _], _, rfl, by simp, by simp⟩
  · exact ⟨[_, _, _, _, _], _, rfl, by simp, by simp⟩

theorem flatMap_put {k : Container} {ks : List Container} (h : ∀ j ∈ ks, j ≠ k) (c : Content) (xs : List k.Item) :
    ks.flatMap (containerPieces · (k.put c xs)) = ks.flatMap (containerPieces · c) := by
  induction ks with
  | nil => rfl
  | cons j ks ih =>
    rw [List.flatMap_cons, List.flatMap_cons, put_other (h j (by simp)), ih (fun i hi => h i (by simp [hi]))]

/-- The pieces before and after some items of a list do not depend on these items. -/
theorem pieces_split {b : Bundle} {c : Content} {k : Container} (hc : b.coreContent = some (some c)) (pre post : List k.Item) :
    ∃ l r, ∀ mid, (∀ ys, k.items c = some ys → ys = pre ++ mid ++ post → pieces b = l ++ mid.map k.print ++ r) ∧
      pieces (withItems b k (pre ++ mid ++ post)) = l ++ mid.map k.print ++ r := by
  obtain ⟨ks, js, h1, h2, h3⟩ := containers_split k
  refine ⟨[.ok xmlDeclLine, unparseNamespaceInfo b.namespaceInfo] ++ (match b.header with
      | none => []
      | some h => [unparseHeader h]) ++ ([.ok (lineOpen 2 c!"CORE-CONTENT")] ++ ([.ok (lineOpen 4 c!"REQ-IF-CONTENT")] ++
      (ks.flatMap (containerPieces · c) ++ ([.ok (lineOpen 6 k.tag)] ++ pre.map k.print)))),
    post.map k.print ++ [.ok (lineClose 6 k.tag)] ++ js.flatMap (containerPieces · c) ++ [.ok (lineClose 4 c!"REQ-IF-CONTENT")] ++
      [.ok (lineClose 2 c!"CORE-CONTENT")] ++
      (if b.toolExtensionsTagExists then [.ok (lineOpen 2 c!"TOOL-EXTENSIONS"), .ok (lineClose 2 c!"TOOL-EXTENSIONS")] else []) ++
      [.ok c!"</REQ-IF>\n"], ?_⟩
  intro mid
  constructor
  · intro ys hy e
    subst e
    unfold pieces
    rw [hc]
    unfold corePieces contentPieces
    dsimp only
    rw [h1, List.flatMap_append, List.flatMap_cons]
    have : containerPieces k c = [.ok (lineOpen 6 k.tag)] ++ (pre ++ mid ++ post).map k.print ++ [.ok (lineClose 6 k.tag)] := by
      unfold containerPieces
      rw [hy]
    rw [this]
    simp only [List.map_append, List.append_assoc]
    cases b.header <;> simp only [List.append_assoc]
  · unfold pieces withItems
    rw [hc]
    dsimp only
    unfold corePieces contentPieces
    dsimp only
    rw [h1, List.flatMap_append, List.flatMap_cons, flatMap_put h2, flatMap_put h3]
    have : containerPieces k (k.put c (pre ++ mid ++ post)) =
        [.ok (lineOpen 6 k.tag)] ++ (pre ++ mid ++ post).map k.print ++ [.ok (lineClose 6 k.tag)] := by
      unfold containerPieces
      rw [put_get]
    rw [this]
    simp only [List.map_append, List.append_assoc]
    cases b.header <;> simp only [List.append_assoc]

theorem joinPy_three {l m r : List (Py Str)} {out : Str} (h : joinPy (l ++ m ++ r) = .ok out) : ∃ x y z, out = x ++ y ++ z ∧
    joinPy m = .ok y ∧ ∀ m', joinPy (l ++ m' ++ r) = match joinPy m' with
      | .error e => .error e
      | .ok t => .ok (x ++ t ++ z) := by
  rw [List.append_assoc, joinPy_append] at h
  cases hl : joinPy l with
  | error e => rw [hl] at h; cases h
  | ok x =>
    rw [hl, joinPy_append] at h
    cases hm : joinPy m with
    | error e => rw [hm] at h; cases h
    | ok y =>
      rw [hm] at h
      cases hr : joinPy r with
      | error e => rw [hr] at h; cases h
      | ok z =>
        rw [hr] at h
        refine ⟨x, y, z, ?_, rfl, ?_⟩
        · rw [List.append_assoc]; exact (Except.ok.inj h).symm
        · intro m'
          rw [List.append_assoc, joinPy_append, hl, joinPy_append, hr]
          cases joinPy m' with
          | error e => rfl
          | ok t => dsimp only; rw [List.append_assoc]

/-- **C77.** Editing a list is local.  Replace some consecutive items of one of the six lists by
others (or insert some, or delete them): the printed text changes exactly where these items were
printed, and nowhere else.  If one of the new items cannot be printed, its exception is raised. -/
theorem C77_local {b : Bundle} {c : Content} {k : Container} {pre mid post : List k.Item} {out : Str}
    (hc : b.coreContent = some (some c)) (hk : k.items c = some (pre ++ mid ++ post)) (hout : unparse b = .ok out) :
    ∃ before here after, out = before ++ here ++ after ∧ joinPy (mid.map k.print) = .ok here ∧
      ∀ mid', unparse (withItems b k (pre ++ mid' ++ post)) = match joinPy (mid'.map k.print) with
        | .error e => .error e
        | .ok t => .ok (before ++ t ++ after) := by
  obtain ⟨l, r, h⟩ := pieces_split hc pre post
  rw [C77_pieces, (h mid).1 _ hk rfl] at hout
  obtain ⟨x, y, z, h1, h2, h3⟩ := joinPy_three hout
  refine ⟨x, y, z, h1, h2, ?_⟩
  intro mid'
  rw [C77_pieces, (h mid').2]
  exact h3 _

/-- **C77.** Editing the header is local. -/
theorem C77_header {b : Bundle} {h : Header} {out : Str} (hh : b.header = some h) (hout : unparse b = .ok out) :
    ∃ before here after, out = before ++ here ++ after ∧ unparseHeader h = .ok here ∧
      ∀ h', unparse { b with header := some h' } = match unparseHeader h' with
        | .error e => .error e
        | .ok t => .ok (before ++ t ++ after) := by
  have e : ∀ h', pieces { b with header := some h' } = [.ok xmlDeclLine, unparseNamespaceInfo b.namespaceInfo] ++ [unparseHeader h'] ++
      (corePieces b.coreContent ++
        (if b.toolExtensionsTagExists then [.ok (lineOpen 2 c!"TOOL-EXTENSIONS"), .ok (lineClose 2 c!"TOOL-EXTENSIONS")] else []) ++
        [.ok c!"</REQ-IF>\n"]) := by
    intro h'
    unfold pieces
    simp only [List.append_assoc]
  have eb : b = { b with header := some h } := by cases b; cases hh; rfl
  rw [C77_pieces, eb, e] at hout
  obtain ⟨x, y, z, h1, h2, h3⟩ := joinPy_three hout
  have one : ∀ p : Py Str, joinPy [p] = p := by
    intro p; cases p <;> simp [joinPy]
  rw [one] at h2
  refine ⟨x, y, z, h1, h2, ?_⟩
  intro h'
  rw [C77_pieces, e, h3, one]

/-! ## Edits of the attribute values of an object -/

theorem concatPy_join {α : Type} (f : α → Py Str) (xs : List α) : concatPy f xs = joinPy (xs.map f) := by
  induction xs with
  | nil => rfl
  | cons x xs ih =>
    rw [concatPy, List.map_cons, ih]
    cases f x <;> rfl

/-- The object has one place for its values. -/
def OneValues (o : SpecObject) : Prop := ∀ n, o.xmlNode = some n → (childTags n).count (.name c!"VALUES") = 1

theorem objectTags {o : SpecObject} {tags : List Tag} (h1 : OneValues o) (h : specObjectChildTags o = .ok tags) :
    ∃ l r, tags = l ++ .name c!"VALUES" :: r ∧ (∀ t ∈ l, t ≠ .name c!"VALUES") ∧ ∀ t ∈ r, t ≠ .name c!"VALUES" := by
  have hcount : tags.count (.name c!"VALUES") = 1 := by
    unfold specObjectChildTags at h
    cases hn : o.xmlNode with
    | none => rw [hn] at h; cases h; decide
    | some n =>
      rw [hn] at h
      obtain ⟨-, -, h⟩ := py_bind_inv h
      obtain ⟨-, -, h⟩ := py_bind_inv h
      cases h
      exact h1 n hn
  have hm : Tag.name c!"VALUES" ∈ tags := List.count_pos_iff.1 (by omega)
  obtain ⟨l, r, rfl⟩ := List.append_of_mem hm
  rw [List.count_append, List.count_cons_self] at hcount
  refine ⟨l, r, rfl, ?_, ?_⟩
  · rintro t ht rfl
    have := List.count_pos_iff.2 ht
    omega
  · rintro t ht rfl
    have := List.count_pos_iff.2 ht
    omega

theorem objectChild_other {o : SpecObject} {t : Tag} (h : t ≠ .name c!"VALUES") (as : List SpecObjectAttribute) :
    unparseSpecObjectChild { o with attributes := as } t = unparseSpecObjectChild o t := by
  unfold unparseSpecObjectChild
  rw [if_neg h, if_neg h]
  rfl

theorem joinPy_flat (l m r : List (Py Str)) : joinPy (l ++ joinPy m :: r) = joinPy (l ++ m ++ r) := by
  rw [List.append_assoc, joinPy_append, joinPy_append]
  cases joinPy l with
  | error e => rfl
  | ok x =>
    dsimp only
    rw [joinPy_append]
    cases joinPy m <;> rfl

theorem attributeValues_join {vs : List SpecObjectAttribute} (h : vs ≠ []) : unparseAttributeValues (some vs) =
    joinPy ([.ok (lineOpen 10 c!"VALUES")] ++ vs.map unparseAttributeValue ++ [.ok (lineClose 10 c!"VALUES")]) := by
  cases vs with
  | nil => exact absurd rfl h
  | cons v vs =>
    show (concatPy unparseAttributeValue (v :: vs) >>= fun body => pure (lineOpen 10 c!"VALUES" ++ body ++ lineClose 10 c!"VALUES")) = _
    rw [concatPy_join, List.append_assoc, List.singleton_append, joinPy, joinPy_append]
    cases joinPy ((v :: vs).map unparseAttributeValue) with
    | error e => rfl
    | ok t => simp only [joinPy, py_bind_ok, py_pure, List.append_nil, List.append_assoc]

/-- The start tag of an object. -/
def objectTag (o : SpecObject) : Str :=
  spaces 8 ++ c!"<SPEC-OBJECT" ++ attrOpt c!"DESC" id o.description ++ attrOut c!"IDENTIFIER" o.identifier ++
    attrTruthy c!"LAST-CHANGE" id o.lastChange ++ attrOpt c!"LONG-NAME" id o.longName ++ c!">\n"

theorem object_join {o : SpecObject} {tags : List Tag} (h : specObjectChildTags o = .ok tags) : unparseSpecObject o =
    joinPy ([.ok (objectTag o)] ++ tags.map (unparseSpecObjectChild o) ++ [.ok (lineClose 8 c!"SPEC-OBJECT")]) := by
  unfold unparseSpecObject
  rw [h, py_bind_ok, concatPy_join, List.singleton_append, List.cons_append, joinPy, joinPy_append]
  cases joinPy (tags.map (unparseSpecObjectChild o)) with
  | error e => rfl
  | ok t => simp only [joinPy, py_bind_ok, py_pure, List.append_nil, List.append_assoc, objectTag]

/-- **C77.** Editing the values of an object is local, as long as some values remain (no values
at all are printed as `<VALUES/>`). -/
theorem C77_object {o : SpecObject} {pre mid post : List SpecObjectAttribute} {out : Str} (h1 : OneValues o)
    (ha : o.attributes = pre ++ mid ++ post) (hne : o.attributes ≠ []) (hout : unparseSpecObject o = .ok out) :
    ∃ before here after, out = before ++ here ++ after ∧ joinPy (mid.map unparseAttributeValue) = .ok here ∧
      ∀ mid', pre ++ mid' ++ post ≠ [] → unparseSpecObject { o with attributes := pre ++ mid' ++ post } =
        match joinPy (mid'.map unparseAttributeValue) with
        | .error e => .error e
        | .ok t => .ok (before ++ t ++ after) := by
  cases ht : specObjectChildTags o with
  | error e => unfold unparseSpecObject at hout; rw [ht] at hout; cases hout
  | ok tags =>
    obtain ⟨l, r, rfl, hl, hr⟩ := objectTags h1 ht
    have e : ∀ mid', pre ++ mid' ++ post ≠ [] → unparseSpecObject { o with attributes := pre ++ mid' ++ post } =
        joinPy (([.ok (objectTag o)] ++ l.map (unparseSpecObjectChild o) ++ [.ok (lineOpen 10 c!"VALUES")] ++ pre.map unparseAttributeValue) ++
          mid'.map unparseAttributeValue ++
          (post.map unparseAttributeValue ++ [.ok (lineClose 10 c!"VALUES")] ++ r.map (unparseSpecObjectChild o) ++
            [.ok (lineClose 8 c!"SPEC-OBJECT")])) := by
      intro mid' hm
      rw [object_join (o := { o with attributes := pre ++ mid' ++ post }) (tags := l ++ .name c!"VALUES" :: r) ht, List.map_append, List.map_cons]
      have el : l.map (unparseSpecObjectChild { o with attributes := pre ++ mid' ++ post }) = l.map (unparseSpecObjectChild o) :=
        List.map_congr_left fun t h => objectChild_other (hl t h) _
      have er : r.map (unparseSpecObjectChild { o with attributes := pre ++ mid' ++ post }) = r.map (unparseSpecObjectChild o) :=
        List.map_congr_left fun t h => objectChild_other (hr t h) _
      have ev : unparseSpecObjectChild { o with attributes := pre ++ mid' ++ post } (.name c!"VALUES") =
          joinPy ([.ok (lineOpen 10 c!"VALUES")] ++ (pre ++ mid' ++ post).map unparseAttributeValue ++ [.ok (lineClose 10 c!"VALUES")]) := by
        unfold unparseSpecObjectChild
        rw [if_pos rfl]
        exact attributeValues_join hm
      rw [el, er, ev]
      have := joinPy_flat ([.ok (objectTag o)] ++ l.map (unparseSpecObjectChild o))
        ([.ok (lineOpen 10 c!"VALUES")] ++ (pre ++ mid' ++ post).map unparseAttributeValue ++ [.ok (lineClose 10 c!"VALUES")])
        (r.map (unparseSpecObjectChild o) ++ [.ok (lineClose 8 c!"SPEC-OBJECT")])
      simp only [List.map_append, List.append_assoc, List.cons_append] at this ⊢
      exact this
    have eo : o = { o with attributes := pre ++ mid ++ post } := by cases o; cases ha; rfl
    rw [eo, e mid (ha ▸ hne)] at hout
    obtain ⟨x, y, z, g1, g2, g3⟩ := joinPy_three hout
    refine ⟨x, y, z, g1, g2, ?_⟩
    intro mid' hm
    rw [e mid' hm]
    exact g3 _

/-- **C77.** Changing the text of one string value of one object changes the printed document
exactly in the characters of this text. -/
theorem C77_string {b : Bundle} {c : Content} {os os' : List SpecObject} {o : SpecObject} {as as' : List SpecObjectAttribute}
    {a : SpecObjectAttribute} {v out : Str} (hc : b.coreContent = some (some c)) (hos : c.specObjects = some (os ++ o :: os'))
    (h1 : OneValues o) (has : o.attributes = as ++ a :: as') (hs : a.type = .string) (hv : a.value = .str v) (hout : unparse b = .ok out) :
    ∃ before after, out = before ++ htmlEscape v ++ after ∧
      ∀ w, unparse { b with coreContent := some (some { c with
          specObjects := some (os ++ { o with attributes := as ++ { a with value := .str w } :: as' } :: os') }) } =
        .ok (before ++ htmlEscape w ++ after) := by
  obtain ⟨x, y, z, e1, e2, e3⟩ := C77_local (k := .specObjects) (pre := os) (mid := [o]) (post := os') hc
    (by rw [List.append_assoc os [o] os']; exact hos) hout
  have one : ∀ p : Py Str, joinPy [p] = p := by
    intro p; cases p <;> simp [joinPy]
  have e2 : unparseSpecObject o = .ok y := (one _).symm.trans e2
  obtain ⟨x', y', z', f1, f2, f3⟩ := C77_object (o := o) (pre := as) (mid := [a]) (post := as') h1 (by rw [has]; simp) (by rw [has]; simp) e2
  have str : ∀ w, ∃ p q, unparseAttributeValue { a with value := .str w } = .ok (p ++ htmlEscape w ++ q) ∧
      ∀ w', unparseAttributeValue { a with value := .str w' } = .ok (p ++ htmlEscape w' ++ q) := by
    intro w
    have : ∀ w', unparseAttributeValue { a with value := .str w' } =
        .ok (simpleValueTemplate c!"STRING" (htmlEscape w') (fmtOpt a.definitionRef)) := by
      intro w'
      unfold unparseAttributeValue
      dsimp only
      rw [hs]
    obtain ⟨p, q, hpq⟩ : ∃ p q, ∀ w', simpleValueTemplate c!"STRING" w' (fmtOpt a.definitionRef) = p ++ w' ++ q := by
      refine ⟨spaces 12 ++ c!"<ATTRIBUTE-VALUE-" ++ c!"STRING" ++ c!" " ++ c!"THE-VALUE" ++ c!"=\"", c!"\"" ++ c!">\n" ++
        lineOpen 14 c!"DEFINITION" ++ lineElem 16 (c!"ATTRIBUTE-DEFINITION-" ++ c!"STRING" ++ c!"-REF") (fmtOpt a.definitionRef) ++
        lineClose 14 c!"DEFINITION" ++ lineClose 12 (c!"ATTRIBUTE-VALUE-" ++ c!"STRING"), ?_⟩
      intro w'
      unfold simpleValueTemplate attrOut
      simp only [List.append_assoc]
    exact ⟨p, q, by rw [this, hpq], fun w' => by rw [this, hpq]⟩
  obtain ⟨p, q, g1, g2⟩ := str v
  have ea : a = { a with value := .str v } := by cases a; cases hv; rfl
  have f2 : unparseAttributeValue a = .ok y' := (one _).symm.trans f2
  rw [ea, g1] at f2
  cases f2
  refine ⟨x ++ (x' ++ p), q ++ z' ++ z, ?_, ?_⟩
  · rw [e1, f1]; simp only [List.append_assoc]
  · intro w
    have ew : withItems b .specObjects (os ++ [{ o with attributes := as ++ { a with value := .str w } :: as' }] ++ os') =
        { b with coreContent := some (some { c with
          specObjects := some (os ++ { o with attributes := as ++ { a with value := .str w } :: as' } :: os') }) } := by
      unfold withItems
      rw [hc, List.append_assoc]
      rfl
    rw [← ew]
    refine (e3 _).trans ?_
    have : joinPy ([{ o with attributes := as ++ { a with value := .str w } :: as' }].map (Container.print .specObjects)) =
        .ok (x' ++ (p ++ htmlEscape w ++ q) ++ z') := by
      refine (one _).trans ?_
      have f3 := f3 [{ a with value := .str w }] (by simp)
      rw [List.append_assoc as] at f3
      refine f3.trans ?_
      rw [List.map_cons, List.map_nil, one, g2]
    rw [this]
    simp only [List.append_assoc]

/-! ## Edited documents are read back -/

theorem safeContent_item {Γ : Ctx} {c : Content} (h : SafeContent Γ c) (k : Container) {xs : List k.Item} (hk : k.items c = some xs) :
    ∀ x ∈ xs, k.Safe Γ x := by
  cases k
  · exact h.dataTypes xs hk
  · exact h.specTypes xs hk
  · exact h.specObjects xs hk
  · exact h.specRelations xs hk
  · exact h.specifications xs hk
  · exact h.specRelationGroups xs hk

theorem safeContent_put {Γ : Ctx} {c : Content} (h : SafeContent Γ c) (k : Container) {xs : List k.Item} (hx : ∀ x ∈ xs, k.Safe Γ x) :
    SafeContent Γ (k.put c xs) := by
  obtain ⟨h1, h2, h3, h4, h5, h6⟩ := h
  cases k
  · exact ⟨by rintro _ ⟨⟩; exact hx, h2, h3, h4, h5, h6⟩
  · exact ⟨h1, by rintro _ ⟨⟩; exact hx, h3, h4, h5, h6⟩
  · exact ⟨h1, h2, by rintro _ ⟨⟩; exact hx, h4, h5, h6⟩
  · exact ⟨h1, h2, h3, by rintro _ ⟨⟩; exact hx, h5, h6⟩
  · exact ⟨h1, h2, h3, h4, by rintro _ ⟨⟩; exact hx, h6⟩
  · exact ⟨h1, h2, h3, h4, h5, by rintro _ ⟨⟩; exact hx⟩

theorem safe_edit {as : List (Str × Str)} {p : Str} {b : Bundle} {c : Content} {k : Container} {pre mid post : List k.Item}
    (h : SafeBundle as p b) (hc : b.coreContent = some (some c)) (hk : k.items c = some (pre ++ mid ++ post)) {mid' : List k.Item}
    (hm : ∀ Γ, IsCtx as p (contentUses c) Γ → ∀ x ∈ mid', k.Safe Γ x)
    (hu : contentUses (k.put c (pre ++ mid' ++ post)) = contentUses c) : SafeBundle as p (withItems b k (pre ++ mid' ++ post)) := by
  have e : withItems b k (pre ++ mid' ++ post) = { b with coreContent := some (some (k.put c (pre ++ mid' ++ post))) } := by
    unfold withItems
    rw [hc]
  rw [e]
  refine ⟨h.root, h.header, ?_, .inr (.inl rfl)⟩
  rintro c' ⟨⟩ Γ hΓ
  rw [hu] at hΓ
  have hs := h.content c hc Γ hΓ
  refine safeContent_put hs k ?_
  intro x hx
  rcases List.mem_append.1 hx with hx | hx
  · rcases List.mem_append.1 hx with hx | hx
    · exact safeContent_item hs k hk x (by simp [hx])
    · exact hm Γ hΓ x hx
  · exact safeContent_item hs k hk x (by simp [hx])

/-- **C77.** A safe bundle in which some items are replaced by safe ones is read back as edited. -/
theorem C77_edit {as : List (Str × Str)} {p : Str} {b : Bundle} {c : Content} {k : Container} {pre mid post : List k.Item}
    (h : SafeBundle as p b) (hc : b.coreContent = some (some c)) (hk : k.items c = some (pre ++ mid ++ post)) {mid' : List k.Item}
    (hm : ∀ Γ, IsCtx as p (contentUses c) Γ → ∀ x ∈ mid', k.Safe Γ x)
    (hu : contentUses (k.put c (pre ++ mid' ++ post)) = contentUses c) :
    ∃ out b', unparse (withItems b k (pre ++ mid' ++ post)) = .ok out ∧ parseString out = .ok b' ∧
      ReadsBack as (withItems b k (pre ++ mid' ++ post)) b' :=
  C43_roundtrip (safe_edit h hc hk hm hu)

theorem lastWith_map {α β κ : Type} [DecidableEq κ] {f : α → β} {key : α → κ} {key' : β → κ} (h : ∀ x, key' (f x) = key x) (k : κ) (l : List α) :
    lastWith key' k (l.map f) = (lastWith key k l).map f := by
  unfold lastWith
  rw [List.filter_map, List.getLast?_map]
  congr 2
  apply List.filter_congr
  intro x _
  simp [h]

/-- **C77.** The lookup of a parsed bundle does not notice an edit of the list of objects: it goes
on answering from the list that was parsed.  After writing and reading it answers from the edited
list. -/
theorem C77_lookup {text : Str} {as : List (Str × Str)} {p : Str} {b : Bundle} {c : Content} {pre mid post mid' : List SpecObject}
    (hb : parseString text = .ok b) (h : SafeBundle as p b) (hc : b.coreContent = some (some c))
    (hk : c.specObjects = some (pre ++ mid ++ post))
    (hm : ∀ Γ, IsCtx as p (contentUses c) Γ → ∀ x ∈ mid', SafeObject Γ x)
    (hu : contentUses { c with specObjects := some (pre ++ mid' ++ post) } = contentUses c) (ref : Str) :
    (withItems b .specObjects (pre ++ mid' ++ post)).lookup.specObjectByRef ref =
      orKeyError (lastWith SpecObject.identifier ref (pre ++ mid ++ post)) ∧
    ∃ out b', unparse (withItems b .specObjects (pre ++ mid' ++ post)) = .ok out ∧ parseString out = .ok b' ∧
      (b'.lookup.specObjectByRef ref).map bareObject =
        orKeyError ((lastWith SpecObject.identifier ref (pre ++ mid' ++ post)).map readObject) := by
  have hw : withItems b .specObjects (pre ++ mid' ++ post) = { b with coreContent := some (some { c with specObjects := some (pre ++ mid' ++ post) }) } := by
    unfold withItems
    rw [hc]
    rfl
  constructor
  · rw [hw]
    refine (C18_spec_objects text b hb ref).2.1.trans ?_
    unfold specObjectsOf
    rw [hc]
    dsimp only
    rw [hk]
    rfl
  · obtain ⟨out, b', h1, h2, h3⟩ := C77_edit (k := .specObjects) h hc hk hm hu
    refine ⟨out, b', h1, h2, ?_⟩
    rw [(C18_spec_objects out b' h2 ref).2.1]
    have hl : (specObjectsOf b').map bareObject = (pre ++ mid' ++ post).map readObject := by
      have := h3.content
      rw [hw] at this
      unfold specObjectsOf
      cases hbc : b'.coreContent with
      | none => rw [hbc] at this; cases this
      | some o =>
        cases o with
        | none => rw [hbc] at this; cases this
        | some c' =>
          rw [hbc] at this
          have := Option.some.inj (Option.some.inj this)
          have := congrArg Content.specObjects this
          dsimp only [bareContent, readContent, Option.map] at this ⊢
          cases hco : c'.specObjects with
          | none => rw [hco] at this; cases this
          | some xs => rw [hco] at this; exact Option.some.inj this
    have e1 := lastWith_map (f := bareObject) (key := SpecObject.identifier) (key' := SpecObject.identifier) (fun _ => rfl) ref (specObjectsOf b')
    have e2 := lastWith_map (f := readObject) (key := SpecObject.identifier) (key' := SpecObject.identifier) (fun _ => rfl) ref (pre ++ mid' ++ post)
    rw [hl, e2] at e1
    rw [e1]
    cases lastWith SpecObject.identifier ref (specObjectsOf b') <;> rfl

/-- Non-vacuity of C77_local and C77_edit: in the example bundle the first object is replaced by
two others. -/
example : ∃ before here after out b', unparse exampleBundle = .ok (before ++ here ++ after) ∧ unparseSpecObject exampleObject = .ok here ∧
    unparse (withItems exampleBundle .specObjects [exampleObjectRead, exampleObject, exampleObjectRead]) = .ok out ∧
    parseString out = .ok b' ∧ (∃ new, out = before ++ new ++ after) := by
  obtain ⟨t0, b0, g0, -⟩ := C43_roundtrip exampleBundle_safe
  obtain ⟨x, y, z, e1, e2, e3⟩ := C77_local (k := .specObjects) (pre := []) (mid := [exampleObject]) (post := [exampleObjectRead]) (b := exampleBundle) rfl rfl g0
  obtain ⟨out, b', f1, f2, -⟩ := C77_edit (k := .specObjects) (pre := []) (mid := [exampleObject]) (post := [exampleObjectRead])
    (mid' := [exampleObjectRead, exampleObject]) exampleBundle_safe rfl rfl (by
      intro Γ hΓ x hx
      have := (exampleBundle_safe.content _ rfl Γ hΓ).specObjects _ rfl
      simp only [List.mem_cons, List.not_mem_nil, or_false] at hx
      rcases hx with rfl | rfl <;> exact this _ (by simp)) (by decide)
  have e4 := (e3 [exampleObjectRead, exampleObject]).symm.trans f1
  have one : ∀ p : Py Str, joinPy [p] = p := by
    intro p; cases p <;> simp [joinPy]
  refine ⟨x, y, z, out, b', e1 ▸ g0, (one _).symm.trans e2, f1, f2, ?_⟩
  cases hj : joinPy ([exampleObjectRead, exampleObject].map (Container.print .specObjects)) with
  | error e => rw [hj] at e4; cases e4
  | ok t => rw [hj] at e4; exact ⟨t, (Except.ok.inj e4).symm⟩

end ReqIF

namespace ReqIF.Xsd
open Spec

theorem edited_back {as : List (Str × Str)} {p : Str} {b : Bundle} (h2 : SafeBundle as p b)
    (h4 : b.namespaceInfo.originalReqifTagDump = some (capturedTag as))
    (h5 : ∀ h, b.header = some h → readHeader h = h ∧ h.repositoryId ≠ .text []) :
    ∀ c k (pre mid post mid' : List (Container.Item k)), b.coreContent = some (some c) →
      k.items c = some (pre ++ mid ++ post) → (∀ Γ, IsCtx as p (contentUses c) Γ → ∀ x ∈ mid', k.Safe Γ x) →
      contentUses (k.put c (pre ++ mid' ++ post)) = contentUses c →
      ∃ before here after t b' c', unparse b = .ok (before ++ here ++ after) ∧ joinPy (mid.map k.print) = .ok here ∧
        joinPy (mid'.map k.print) = .ok t ∧ unparse (withItems b k (pre ++ mid' ++ post)) = .ok (before ++ t ++ after) ∧
        parseString (before ++ t ++ after) = .ok b' ∧
        b'.header = b.header ∧ b'.namespaceInfo = { b.namespaceInfo with doctypeIsPresent := true, encoding := c!"UTF-8" } ∧
        b'.toolExtensionsTagExists = b.toolExtensionsTagExists ∧ b'.coreContent = some (some c') ∧
        bareContent c' = readContent (k.put c (pre ++ mid' ++ post)) ∧ b'.exceptions = [] := by
  intro c k pre mid post mid' hc hi hm hu
  obtain ⟨t0, b0, g0, -⟩ := C43_roundtrip h2
  obtain ⟨x, y, z, e1, e2, e3⟩ := C77_local hc hi g0
  obtain ⟨out, b', f1, f2, f3⟩ := C77_edit h2 hc hi hm hu
  have e4 := e3 mid'
  have hw : withItems b k (pre ++ mid' ++ post) = { b with coreContent := some (some (k.put c (pre ++ mid' ++ post))) } := by
    unfold withItems
    rw [hc]
  cases hj : joinPy (mid'.map k.print) with
  | error e => rw [hj, f1] at e4; cases e4
  | ok t =>
    rw [hj] at e4
    have : out = x ++ t ++ z := Except.ok.inj (f1.symm.trans e4)
    subst this
    have hcont := f3.content
    have hhead := f3.header
    have hns := f3.namespaceInfo
    have htool := f3.toolExtensions
    rw [hw] at hcont hhead hns htool
    cases hbc : b'.coreContent with
    | none => rw [hbc] at hcont; cases hcont
    | some o =>
      cases o with
      | none => rw [hbc] at hcont; cases hcont
      | some c' =>
        rw [hbc] at hcont
        refine ⟨x, y, z, t, b', c', e1 ▸ g0, e2, rfl, f1, f2, ?_, ?_, htool, hbc, Option.some.inj (Option.some.inj hcont), f3.exceptions⟩
        · rw [hhead]
          show b.header.map readHeader = b.header
          cases hh : b.header with
          | none => rfl
          | some hd => rw [Option.map_some, (h5 hd hh).1]
        · rw [hns]
          show readRoot as b.namespaceInfo = _
          unfold readRoot
          rw [← h4]

/-- **C77.** A plain document is read, some items are replaced by safe ones, and it is written and
read again: what comes back is the edited bundle, with the same header, namespace information and
tool extensions. -/
theorem C77_document {text : Str} {doc : Doc} {p : Str} (hr : readDoc text = some doc) (hv : validRoot .lenient doc.root = true)
    (hs : noSpecials doc.root = true) (hp : plainDocument p doc.root = true) (hk : childNames doc.root.kids ≠ []) :
    ∃ b as, parseString text = .ok b ∧ ∀ c k (pre mid post mid' : List (Container.Item k)), b.coreContent = some (some c) →
      k.items c = some (pre ++ mid ++ post) → (∀ Γ, IsCtx as p (contentUses c) Γ → ∀ x ∈ mid', k.Safe Γ x) →
      contentUses (k.put c (pre ++ mid' ++ post)) = contentUses c →
      ∃ before here after t b' c', unparse b = .ok (before ++ here ++ after) ∧ joinPy (mid.map k.print) = .ok here ∧
        joinPy (mid'.map k.print) = .ok t ∧ unparse (withItems b k (pre ++ mid' ++ post)) = .ok (before ++ t ++ after) ∧
        parseString (before ++ t ++ after) = .ok b' ∧
        b'.header = b.header ∧ b'.namespaceInfo = { b.namespaceInfo with doctypeIsPresent := true, encoding := c!"UTF-8" } ∧
        b'.toolExtensionsTagExists = b.toolExtensionsTagExists ∧ b'.coreContent = some (some c') ∧
        bareContent c' = readContent (k.put c (pre ++ mid' ++ post)) ∧ b'.exceptions = [] := by
  obtain ⟨b, as, i, ks, -, h1, h2, -, -, h4, h5⟩ := plain_safe hr hv hs hp hk
  exact ⟨b, as, h1, edited_back h2 h4 h5⟩

theorem any_edit {α : Type} {f : α → Bool} {xs ys : List α} {x y : α} (h : f y = f x) : (xs ++ y :: ys).any f = (xs ++ x :: ys).any f := by
  simp [h]

/-- **C77.** A plain document is read, the text of one string value of one object is replaced by a
text a ReqIF attribute can hold, and it is written and read again: the printed text differs from what
would be printed without the edit exactly in that text, and the bundle read back differs exactly in that
value. -/
theorem C77_set_string {text : Str} {doc : Doc} {p : Str} (hr : readDoc text = some doc) (hv : validRoot .lenient doc.root = true)
    (hs : noSpecials doc.root = true) (hp : plainDocument p doc.root = true) (hk : childNames doc.root.kids ≠ []) :
    ∃ b, parseString text = .ok b ∧ ∀ c os o os' as a as' v w, b.coreContent = some (some c) → c.specObjects = some (os ++ o :: os') →
      OneValues o → o.attributes = as ++ a :: as' → a.type = .string → a.value = .str v → HtmlAttr w →
      ∃ before after b' c', unparse b = .ok (before ++ htmlEscape v ++ after) ∧
        unparse { b with coreContent := some (some { c with
          specObjects := some (os ++ { o with attributes := as ++ { a with value := .str w } :: as' } :: os') }) } =
            .ok (before ++ htmlEscape w ++ after) ∧
        parseString (before ++ htmlEscape w ++ after) = .ok b' ∧ b'.header = b.header ∧ b'.coreContent = some (some c') ∧
        bareContent c' = readContent { c with
          specObjects := some (os ++ { o with attributes := as ++ { a with value := .str w } :: as' } :: os') } ∧
        b'.exceptions = [] := by
  obtain ⟨b, as0, i, ks, -, g1, g2, -, -, g4, g5⟩ := plain_safe hr hv hs hp hk
  refine ⟨b, g1, ?_⟩
  intro c os o os' as a as' v w hc ho h1 ha ht hval hw
  have hsafe : ∀ Γ, IsCtx as0 p (contentUses c) Γ → ∀ x ∈ [{ o with attributes := as ++ { a with value := .str w } :: as' }], SafeObject Γ x := by
    intro Γ hΓ x hx
    rw [List.mem_singleton.1 hx]
    obtain ⟨q1, q2, q3, q4, q5, q6, q7⟩ := (g2.content c hc Γ hΓ).specObjects _ ho o (by simp)
    refine ⟨q1, q2, q3, q4, q5, ?_, q7⟩
    intro d hd
    rcases List.mem_append.1 hd with hd | hd
    · exact q6 d (by rw [ha]; simp [hd])
    · rcases List.mem_cons.1 hd with e | hd'
      · subst e
        refine ⟨(q6 a (by rw [ha]; simp)).ref, ?_⟩
        dsimp only
        rw [ht]
        exact hw
      · exact q6 d (by rw [ha]; simp [hd'])
  have hu : contentUses { c with specObjects := some (os ++ [{ o with attributes := as ++ { a with value := .str w } :: as' }] ++ os') } = contentUses c := by
    unfold contentUses
    dsimp only
    rw [ho, List.append_assoc]
    have : ((os ++ ([{ o with attributes := as ++ { a with value := .str w } :: as' }] ++ os')).any fun o => o.attributes.any usesXhtml) =
        (os ++ o :: os').any fun o => o.attributes.any usesXhtml := by
      refine any_edit ?_
      dsimp only
      rw [ha]
      refine any_edit ?_
      unfold usesXhtml
      rw [ht]
    rw [Option.getD_some, Option.getD_some, this]
  obtain ⟨x, y, z, t, b', c', e1, -, -, e2, e3, e4, -, -, e5, e6, e7⟩ := edited_back g2 g4 g5 c .specObjects os [o] os'
    [{ o with attributes := as ++ { a with value := .str w } :: as' }] hc (by rw [List.append_assoc os [o] os']; exact ho) hsafe hu
  obtain ⟨x', z', f1, f2⟩ := C77_string hc ho h1 ha ht hval e1
  have ew : withItems b .specObjects (os ++ [{ o with attributes := as ++ { a with value := .str w } :: as' }] ++ os') =
      { b with coreContent := some (some { c with
        specObjects := some (os ++ { o with attributes := as ++ { a with value := .str w } :: as' } :: os') }) } := by
    unfold withItems
    rw [hc, List.append_assoc]
    rfl
  rw [ew, f2 w] at e2
  have e2 := Except.ok.inj e2
  rw [← e2] at e3
  refine ⟨x', z', b', c', f1 ▸ e1, f2 w, e3, e4, e5, ?_, e7⟩
  rw [e6, List.append_assoc os]
  rfl

/-! ## Documents -/

/-- Are the hypotheses of C77_set_string met, and for how many values? -/
def editableStrings (p text : Str) : Option (Bool × Nat) :=
  match readDoc text, parseString text with
  | some d, .ok b => some (validRoot .lenient d.root && noSpecials d.root && plainDocument p d.root && !(childNames d.root.kids).isEmpty,
      ((specObjectsOf b).flatMap fun o => o.attributes.filter fun a => (match o.xmlNode with
        | some n => (childTags n).count (.name c!"VALUES") == 1
        | none => true) && decide (a.type = .string) && match a.value with
          | .str _ => true
          | .list _ => false).length)
  | _, _ => none

set_option maxRecDepth 20000 in
/-- Non-vacuity of C77_document, C77_set_string and C77_lookup. -/
example : editableStrings c!"h" (wellReferencedDoc c!"a") = some (true, 1) ∧ HtmlAttr c!"a < \"b\" & 'c'" := by
  decide +kernel

/-- Is the object found in memory after it was appended to the list, is it found after writing and reading, and
what does the document say then about its description? -/
def appended (text : Str) (o : SpecObject) : Option (Bool × Bool × Option Str) :=
  match parseString text with
  | .ok b =>
    let e := withItems b .specObjects (specObjectsOf b ++ [o])
    match unparse e with
    | .ok out =>
      match parseString out with
      | .ok b' => some (e.lookup.specObjectExists (some o.identifier), b'.lookup.specObjectExists (some o.identifier),
          ((specObjectsOf b').find? (·.identifier == o.identifier)).bind (·.description))
      | .error _ => none
    | .error _ => none
  | .error _ => none

set_option maxRecDepth 20000 in
/-- An object that is appended to the list of a parsed bundle is not found through its lookup; after writing
and reading it is. -/
theorem C77_appended : appended (wellReferencedDoc c!"a") ⟨c!"new", [], some c!"ot", some c!"text", none, none, none⟩ =
    some (false, true, some c!"text") := by
  decide +kernel

end ReqIF.Xsd

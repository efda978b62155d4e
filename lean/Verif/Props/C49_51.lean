import Verif.Proofs.Unindent
import Verif.Props.C48
/-!
# C49 - C51: the strings made of XHTML content

C49: the stripped value has tags without prefixes and declarations.
C50: every text fragment is printed once, in order, if a namespace is in force.
C51: every element is closed; which ones are self-closed.
-/
namespace ReqIF
open Spec

/-! ## C51 -/

/-- **C51**: the printed content of an element in a scope with namespaces.  The tags are, in
document order, those of the tree: an element without content is an empty-element tag,
unless it is called `object` and has no namespace; every other element has a start tag and
an end tag with the same name. -/
theorem C51_namespaced {n : Node} {s : Str} (h : stringifyNamespacedChildren n = .ok s) (hi : ∀ i ∈ infosOfAll n.kids, InfoOk i)
    (hk : ∀ d ∈ n.nsmap, ∀ p, d.1 = some p → NameOk p) :
    ∃ nm rest : Info → Str, (∀ i, nm i = i.name ∨ ∃ p, nm i = p ++ c!":" ++ i.name) ∧
      toks s = tokensOfAll nm rest (fun i => i.ns.isSome || !isObject i.name) n.kids := by
  unfold stringifyNamespacedChildren at h
  split at h
  · cases h
  · refine ⟨_, _, ?_, toks_ns ?_ h hi⟩
    · intro i
      rcases nsTagOut_name n.nsmap.firstKey i false with e | e
      · exact .inl e
      · exact .inr ⟨_, e⟩
    · intro p hp
      cases hm : n.nsmap with
      | nil => rw [hm] at hp; cases hp
      | cons d m => rw [hm] at hp; exact hk d (by rw [hm]; simp) p hp

/-- **C51**: start tags and end tags match. -/
theorem C51_balanced {n : Node} {s : Str} (h : stringifyNamespacedChildren n = .ok s) (hi : ∀ i ∈ infosOfAll n.kids, InfoOk i)
    (hk : ∀ d ∈ n.nsmap, ∀ p, d.1 = some p → NameOk p) : balanced [] (toks s) = true := by
  obtain ⟨nm, rest, -, e⟩ := C51_namespaced h hi hk
  have := balanced_tokensOfAll (nm := nm) (rest := rest) (short := fun i => i.ns.isSome || !isObject i.name) n.kids [] []
  rw [List.append_nil] at this
  rw [e, this]
  rfl

/-- **C51**, content printed without namespaces: an element without content is an
empty-element tag, unless it is called `object` and has no namespace.  (The texts directly
below the element are printed as they are, so they must not look like tags.) -/
theorem C51_plain {n : Node} {s : Str} (h : stringifyChildren n = .ok s) (hn : noSpecialsAll n.kids = true)
    (hi : ∀ i ∈ infosOfAll n.kids, InfoOk i) (hp : TopTextsPlain n.kids) :
    ∃ nm rest top : Info → Str, (∀ i, nm i = i.name ∨ ∃ p, nm i = p ++ c!":" ++ i.name) ∧
      toks s = tokensChildren nm rest top (fun i => i.ns.isSome || !isObject i.name) n.kids := by
  refine ⟨_, _, _, ?_, toks_children h hn hi hp⟩
  intro i
  unfold nodeTagOut
  split
  · split
    · exact .inr ⟨_, rfl⟩
    · exact .inl rfl
  · exact .inl rfl

theorem C51_plain_balanced {n : Node} {s : Str} (h : stringifyChildren n = .ok s) (hn : noSpecialsAll n.kids = true)
    (hi : ∀ i ∈ infosOfAll n.kids, InfoOk i) (hp : TopTextsPlain n.kids) : balanced [] (toks s) = true := by
  obtain ⟨nm, rest, top, -, e⟩ := C51_plain h hn hi hp
  rw [e, balanced_children]

/-- **C51**: in the stripped value no element called `object` is self-closed. -/
theorem C51_object {n : Node} {s : Str} (h : convertChildrenFromReqifNs n = .ok s) (hn : noSpecialsAll n.kids = true)
    (hi : ∀ i ∈ infosOf n, XhtmlNames i) (hd : ∀ i ∈ infosOf n, ∀ d ∈ i.nsdefs, d.1 ≠ some c!"xml") (hp : TopTextsPlain n.kids)
    {nm rest : Str} (ht : .empty nm rest ∈ toks s) : isObject nm = false := by
  have hsub : ∀ i ∈ infosOfAll n.kids, i ∈ infosOf n := by
    intro i hm
    cases n with
    | elem j ks => rw [infosOf]; exact List.mem_cons_of_mem _ hm
    | text _ => cases hm
    | comment _ => cases hm
    | pi _ _ => cases hm
  have hkey : ∀ i ∈ infosOf n, ∀ a ∈ i.attrs, NoAngle a.key := by
    intro i hm a ha
    obtain ⟨h1, -, h2⟩ := (hi i hm).attrs a ha
    have hna : NoAngle a.name := fun c hc => ⟨(h1.2 c hc).2.1, (h1.2 c hc).2.2.1⟩
    unfold Attr.key clark
    rcases h2 with h2 | ⟨h2, -⟩
    · rw [h2]; exact hna
    · rw [h2]
      intro c hc
      simp only [List.mem_append] at hc
      rcases hc with hc | hc
      · rcases hc with (hc | hc) | hc
        · exact (by decide : ∀ c ∈ c!"{", c ≠ '<' ∧ c ≠ '>') c hc
        · exact (by decide : ∀ c ∈ c!"http://www.w3.org/XML/1998/namespace", c ≠ '<' ∧ c ≠ '>') c hc
        · exact (by decide : ∀ c ∈ c!"}", c ≠ '<' ∧ c ≠ '>') c hc
      · exact hna c hc
  have e := toks_convert h hn (fun i hm => ⟨(hi i (hsub i hm)).name, hkey i (hsub i hm)⟩) hp
    (fun i hm => ⟨fun a ha => ((hi i hm).attrs a ha).2.2.imp id (·.2), hd i hm⟩)
  rw [e] at ht
  rcases mem_tokensChildren _ _ ht with ⟨c, hc⟩ | ⟨i, -, hh⟩
  · cases hc
  · rcases hh with hh | hh | ⟨hh, h3⟩
    · cases hh
    · cases hh
    · cases hh
      simpa using h3

/-- **C51**, the opposite: in the namespaced form an `object` without content is self-closed. -/
theorem C51_namespaced_object : stringifyNamespacedChildren (.elem ⟨none, none, c!"THE-VALUE", [], xhtmlMap, []⟩
    [xhtmlEl c!"object" [(c!"data", c!"a.png")] []]) = .ok c!"<xhtml:object data=\"a.png\"/>" := rfl

/-! ## C50 -/

/-- **C50**: with a namespace in force the text of the value, without the tags, is the
concatenation of the text fragments of the content, in order, each escaped once. -/
theorem C50_once {n : Node} {s : Str} (h : stringifyNamespacedChildren n = .ok s) (hi : ∀ i ∈ infosOfAll n.kids, InfoOk i)
    (hk : ∀ d ∈ n.nsmap, ∀ p, d.1 = some p → NameOk p) : charsOf (toks s) = (fragmentsAll n.kids).flatMap escape := by
  obtain ⟨nm, rest, -, e⟩ := C51_namespaced h hi hk
  rw [e, charsOf_tokensOfAll]

/-- **C50**, the exception: without a namespace in force, the first text is printed as it
is, and every other text directly below the element is printed twice, once escaped and once
as it is. -/
theorem C50_doubled {n : Node} {s : Str} (h : stringifyChildren n = .ok s) (hn : noSpecialsAll n.kids = true)
    (hi : ∀ i ∈ infosOfAll n.kids, InfoOk i) (hp : TopTextsPlain n.kids) : charsOf (toks s) = charsChildren n.kids := by
  rw [toks_children h hn hi hp, charsOf_children]

/-- The length of the text, so that the growth can be seen. -/
def topTextLength : List Node → Nat
  | [] => 0
  | .text t :: ns => t.length + topTextLength ns
  | _ :: ns => topTextLength ns

def fragmentLength (ns : List Node) : Nat := ((fragmentsAll ns).map List.length).sum

theorem escape_length_le (s : Str) : s.length ≤ (escape s).length := by
  induction s with
  | nil => simp
  | cons c s ih =>
    have e : escape (c :: s) = escChar c ++ escape s := rfl
    rw [e, List.length_append, List.length_cons]
    have : 1 ≤ (escChar c).length := by unfold escChar; repeat' split
                                        all_goals simp
    omega

theorem flatMap_escape_length (l : List Str) : (l.map List.length).sum ≤ (l.flatMap escape).length := by
  induction l with
  | nil => simp
  | cons s l ih =>
    rw [List.map_cons, List.sum_cons, List.flatMap_cons, List.length_append]
    have := escape_length_le s
    omega

theorem charsTop_grows : ∀ ns : List Node, fragmentLength ns + topTextLength ns ≤ (charsTop ns).length
  | [] => by simp [fragmentLength, fragmentsAll, topTextLength]
  | .text t :: ns => by
    have ih := charsTop_grows ns
    have h := escape_length_le t
    unfold fragmentLength at ih ⊢
    rw [charsTop, topTextLength, fragmentsAll, fragments]
    simp only [List.map_append, List.map_cons, List.map_nil, List.sum_append, List.sum_cons, List.sum_nil, List.length_append]
    omega
  | .elem i ks :: ns => by
    have ih := charsTop_grows ns
    have h := flatMap_escape_length (fragments (.elem i ks))
    unfold fragmentLength at ih ⊢
    rw [charsTop, topTextLength, fragmentsAll, List.map_append, List.sum_append, List.length_append]
    · omega
    all_goals simp
  | .comment c :: ns => by
    have ih := charsTop_grows ns
    unfold fragmentLength at ih ⊢
    rw [charsTop, topTextLength, fragmentsAll, fragments]
    · simpa [fragments] using ih
    all_goals simp
  | .pi c d :: ns => by
    have ih := charsTop_grows ns
    unfold fragmentLength at ih ⊢
    rw [charsTop, topTextLength, fragmentsAll, fragments]
    · simpa [fragments] using ih
    all_goals simp

/-- **C50**, the exception in numbers: content that begins with an element and has no
namespace in force is printed with as many characters more as there are in the texts between
and after its top-level elements. -/
theorem C50_grows {n : Node} {s : Str} (h : stringifyChildren n = .ok s) (hn : noSpecialsAll n.kids = true)
    (hi : ∀ i ∈ infosOfAll n.kids, InfoOk i) (hp : TopTextsPlain n.kids) (hf : ∀ t ns, n.kids ≠ .text t :: ns) :
    fragmentLength n.kids + topTextLength n.kids ≤ (charsOf (toks s)).length := by
  rw [C50_doubled h hn hi hp, charsChildren]
  · exact charsTop_grows n.kids
  · exact hf

set_option maxRecDepth 20000 in
/-- **C50**, the exception: each time the document is read and printed, the text after the
element doubles. -/
theorem C50_passthrough :
    rereadValues [] [⟨.xhtml, some c!"d", .str c!"<p>x</p>y", none, none⟩] = some (some [⟨.xhtml, some c!"d", .str c!"<p>x</p>yy"⟩]) ∧
    rereadValues [] [⟨.xhtml, some c!"d", .str c!"<p>x</p>yy", none, none⟩] = some (some [⟨.xhtml, some c!"d", .str c!"<p>x</p>yyyy"⟩]) := by
  decide +kernel

set_option maxRecDepth 20000 in
/-- **C50**, the exception in a customary document: the schema's namespace is the default
one and the content declares its own namespace.  After the first reading no namespace is in
force at the value. -/
theorem C50_own_declaration :
    rereadValues [(c!"xmlns", c!"http://r")] [⟨.xhtml, some c!"d", .str c!"<p xmlns=\"http://www.w3.org/1999/xhtml\">x</p>y", none, none⟩] =
      some (some [⟨.xhtml, some c!"d", .str c!"<p xmlns=\"http://www.w3.org/1999/xhtml\">x</p>yy"⟩]) := by
  decide +kernel

/-! ## C49 -/

theorem restSafe (as : List Attr) (h : ∀ a ∈ as, NameOk a.name ∧ (a.ns = none ∨ a.ns = some c!"http://www.w3.org/XML/1998/namespace")) :
    attributesText as = [] ∨ ∃ k r' l, k ≠ ' ' ∧ l ≠ ' ' ∧ l ≠ '/' ∧ attributesText as = ' ' :: k :: r' ++ [l] := by
  cases as with
  | nil => exact .inl rfl
  | cons a as =>
    right
    have hl : ∀ (a : Attr) (as : List Attr), ∃ w, attributesText (a :: as) = c!" " ++ a.key ++ c!"=" ++ w ++ ['"'] := by
      intro a as
      induction as generalizing a with
      | nil => exact ⟨c!"\"" ++ escape a.value, by simp [attributesText]⟩
      | cons b bs ih =>
        obtain ⟨w, e⟩ := ih b
        refine ⟨c!"\"" ++ escape a.value ++ c!"\"" ++ (c!" " ++ b.key ++ c!"=" ++ w), ?_⟩
        have e2 : attributesText (a :: b :: bs) = c!" " ++ a.key ++ c!"=\"" ++ escape a.value ++ c!"\"" ++ attributesText (b :: bs) := rfl
        rw [e2, e]
        simp
    obtain ⟨w, e⟩ := hl a as
    obtain ⟨h1, h2⟩ := h a (by simp)
    have hk : ∃ k r, k ≠ ' ' ∧ a.key = k :: r := by
      unfold Attr.key clark
      rcases h2 with h2 | h2
      · rw [h2]
        cases hn : a.name with
        | nil => exact absurd hn h1.1
        | cons k r => exact ⟨k, r, (h1.2 k (by rw [hn]; simp)).1, rfl⟩
      · rw [h2]
        exact ⟨_, _, by decide, rfl⟩
    obtain ⟨k, r, hk1, hk2⟩ := hk
    exact ⟨k, r ++ c!"=" ++ w, '"', hk1, by decide, by decide, by rw [e, hk2]; simp⟩

/-- **C49**: the tags of the stripped value of an XHTML attribute are the start and end tags
of the content with the plain element names, without prefix, and followed by the element's
attributes only (with runs of 16 spaces removed). -/
theorem C49_tags {x t : Node} {v : SpecObjectAttribute} (h : parseXhtmlAttributeValue x = .ok v) (ht : x.find c!"THE-VALUE" = some t)
    (hm : t.nsmap ≠ []) (hi : ∀ i ∈ infosOf t, XhtmlNames i) (hd : ∀ i ∈ infosOf t, ∀ d ∈ i.nsdefs, d.1 ≠ some c!"xml")
    (hp : TopTextsPlain t.kids) :
    ∃ s, v.valueStrippedXhtml = some s ∧ tagsOf (toks s) = (tagsOf (tokensChildren (fun i => i.name) (fun i => attributesText i.attrs)
      (fun i => attributesText i.attrs) (fun i => !isObject i.name) t.kids)).map unrunTok := by
  have hsub : ∀ i ∈ infosOfAll t.kids, i ∈ infosOf t := by
    intro i hm
    cases t with
    | elem j ks => rw [infosOf]; exact List.mem_cons_of_mem _ hm
    | text _ => cases hm
    | comment _ => cases hm
    | pi _ _ => cases hm
  have hkey : ∀ i ∈ infosOf t, ∀ a ∈ i.attrs, NoAngle a.key := by
    intro i hm a ha
    obtain ⟨h1, -, h2⟩ := (hi i hm).attrs a ha
    have hna : NoAngle a.name := fun c hc => ⟨(h1.2 c hc).2.1, (h1.2 c hc).2.2.1⟩
    unfold Attr.key clark
    rcases h2 with h2 | ⟨h2, -⟩
    · rw [h2]; exact hna
    · rw [h2]
      intro c hc
      simp only [List.mem_append] at hc
      rcases hc with hc | hc
      · rcases hc with (hc | hc) | hc
        · exact (by decide : ∀ c ∈ c!"{", c ≠ '<' ∧ c ≠ '>') c hc
        · exact (by decide : ∀ c ∈ c!"http://www.w3.org/XML/1998/namespace", c ≠ '<' ∧ c ≠ '>') c hc
        · exact (by decide : ∀ c ∈ c!"}", c ≠ '<' ∧ c ≠ '>') c hc
      · exact hna c hc
  have hf : findReq x c!"THE-VALUE" = .ok t := by unfold findReq; rw [ht]; rfl
  have hl : t.nsmap.length > 0 := by cases hn : t.nsmap with
    | nil => exact absurd hn hm
    | cons _ _ => simp
  unfold parseXhtmlAttributeValue at h
  rw [hf, py_bind_ok, if_pos hl] at h
  obtain ⟨value, hv, h⟩ := py_bind_inv h
  obtain ⟨stripped, hs, h⟩ := py_bind_inv h
  obtain ⟨d, -, h⟩ := py_bind_inv h
  obtain ⟨ref, -, h⟩ := py_bind_inv h
  rw [py_pure] at h
  cases h
  refine ⟨_, rfl, ?_⟩
  have hn : noSpecialsAll t.kids = true := by
    unfold stringifyNamespacedChildren at hv
    split at hv
    · cases hv
    · exact infosList_noSpecials _ (stringifyNsKids_inv _ _ hv)
  have e := toks_convert hs hn (fun i hm => ⟨(hi i (hsub i hm)).name, hkey i (hsub i hm)⟩) hp
    (fun i hm => ⟨fun a ha => ((hi i hm).attrs a ha).2.2.imp id (·.2), hd i hm⟩)
  rw [tags_unindent, e]
  intro tok htok
  rw [e] at htok
  rcases mem_tokensChildren _ _ htok with ⟨c, rfl⟩ | ⟨i, hi1, hh⟩
  · trivial
  · have hi2 := hi i (hsub i hi1)
    have hns : ' ' ∉ i.name := fun hm => (hi2.name.2 _ hm).1 rfl
    have hr := restSafe i.attrs (fun a ha => ⟨(hi2.attrs a ha).1, (hi2.attrs a ha).2.2.imp id (·.1)⟩)
    rcases hh with rfl | rfl | ⟨rfl, -⟩
    · exact ⟨hns, hr⟩
    · exact hns
    · exact ⟨hns, hr⟩

/-- **C49**: no tag of the stripped value has a prefix, and none declares a namespace: each
is the tag of an element of the content, with its plain name and its attributes, none of which
is called `xmlns`. -/
theorem C49_no_namespace {x t : Node} {v : SpecObjectAttribute} (h : parseXhtmlAttributeValue x = .ok v) (ht : x.find c!"THE-VALUE" = some t)
    (hm : t.nsmap ≠ []) (hi : ∀ i ∈ infosOf t, XhtmlNames i) (hd : ∀ i ∈ infosOf t, ∀ d ∈ i.nsdefs, d.1 ≠ some c!"xml")
    (hp : TopTextsPlain t.kids) :
    ∃ s, v.valueStrippedXhtml = some s ∧ ∀ tok ∈ tagsOf (toks s), ∃ i ∈ infosOfAll t.kids, ':' ∉ i.name ∧ (∀ a ∈ i.attrs, a.name ≠ c!"xmlns") ∧
      (tok = .stop i.name ∨ tok = unrunTok (.start i.name (attributesText i.attrs)) ∨ tok = unrunTok (.empty i.name (attributesText i.attrs))) := by
  obtain ⟨s, hs, e⟩ := C49_tags h ht hm hi hd hp
  refine ⟨s, hs, ?_⟩
  intro tok htok
  rw [e] at htok
  obtain ⟨u, hu, rfl⟩ := List.mem_map.1 htok
  obtain ⟨hu1, hu2⟩ := List.mem_filter.1 hu
  rcases mem_tokensChildren _ _ hu1 with ⟨c, rfl⟩ | ⟨i, hi1, hh⟩
  · cases hu2
  · have hi2 : XhtmlNames i := by
      apply hi
      cases t with
      | elem j ks => rw [infosOf]; exact List.mem_cons_of_mem _ hi1
      | text _ => cases hi1
      | comment _ => cases hi1
      | pi _ _ => cases hi1
    refine ⟨i, hi1, hi2.local_, fun a ha => (hi2.attrs a ha).2.1, ?_⟩
    rcases hh with rfl | rfl | ⟨rfl, -⟩
    · exact .inr (.inl rfl)
    · exact .inl rfl
    · exact .inr (.inr rfl)

/-- What the parser makes of the content of an XHTML value: the value and the stripped value. -/
def xhtmlValuesOf (as : List (Str × Str)) (content : Str) : Option (Str × Str) :=
  match readDoc (document as (c!"<ATTRIBUTE-VALUE-XHTML><DEFINITION><ATTRIBUTE-DEFINITION-XHTML-REF>d</ATTRIBUTE-DEFINITION-XHTML-REF></DEFINITION><THE-VALUE>" ++
      content ++ c!"</THE-VALUE></ATTRIBUTE-VALUE-XHTML>")) with
  | none => none
  | some doc =>
    match strippedRoot doc.root with
    | .error _ => none
    | .ok r =>
      match r.children with
      | [n] => (match parseXhtmlAttributeValue n with
        | .ok v => (match v.value, v.valueStrippedXhtml with
          | .str a, some b => some (a, b)
          | _, _ => none)
        | _ => none)
      | _ => none

set_option maxRecDepth 20000 in
/-- **C49**, the opposite: content that declares its own namespace, in a document whose only
other namespace is the schema's.  The stripped value keeps the prefix; the declaration it
prints is a different one, so neither form can be read again. -/
theorem C49_own_declaration :
    xhtmlValuesOf [(c!"xmlns", c!"http://r")] c!"<x:p xmlns:x=\"http://www.w3.org/1999/xhtml\">a</x:p>" =
      some (c!"<x:p xmlns=\"http://www.w3.org/1999/xhtml\">a</x:p>", c!"<x:p xmlns=\"http://www.w3.org/1999/xhtml\">a</x:p>") ∧
    rereadValues [(c!"xmlns", c!"http://r")] [⟨.xhtml, some c!"d", .str c!"<x:p xmlns=\"http://www.w3.org/1999/xhtml\">a</x:p>", none, none⟩] = none := by
  decide +kernel

set_option maxRecDepth 20000 in
/-- **C49**, the opposite: a top-level text that looks like a tag becomes a tag of the
stripped value. -/
theorem C49_text_becomes_tag :
    xhtmlValuesOf usualRoot c!"a &lt;b:c&gt; <xhtml:p/>" = some (c!"a &lt;b:c&gt; <xhtml:p/>", c!"a <b:c> <p/>") := by
  decide +kernel

set_option maxRecDepth 20000 in
/-- **C49**, the opposite: an attribute with a namespace leaves a declaration behind. -/
theorem C49_attribute :
    xhtmlValuesOf usualRoot c!"<xhtml:p q:v=\"1\" xmlns:q=\"u\"/>" = some (c!"<xhtml:p {u}v=\"1\"/>", c!"<p {u}v=\"1\" xmlns=\"u\"/>") := by
  decide +kernel

/-! ## Non-vacuity -/

/-- The content of `xhtmlValueEl`. -/
def xhtmlContentEl : Node := .elem ⟨none, none, c!"THE-VALUE", [], xhtmlMap, []⟩
  [.text c!"\n  ", xhtmlEl c!"div" [(c!"class", c!"a")] [.text c!"x < ", xhtmlEl c!"br" [] [], .text c!" y"], .text c!"\n"]

example : ∃ v t, parseXhtmlAttributeValue xhtmlValueEl = .ok v ∧ xhtmlValueEl.find c!"THE-VALUE" = some t ∧ t.nsmap ≠ [] ∧
    (∀ i ∈ infosOf t, XhtmlNames i) ∧ (∀ i ∈ infosOf t, ∀ d ∈ i.nsdefs, d.1 ≠ some c!"xml") ∧ TopTextsPlain t.kids ∧
    v.valueStrippedXhtml = some c!"<div class=\"a\">x &lt; <br/> y</div>" := by
  refine ⟨_, xhtmlContentEl, rfl, rfl, by decide, ?_, ?_, ?_, rfl⟩
  · intro i hi
    have e : infosOf xhtmlContentEl = [⟨none, none, c!"THE-VALUE", [], xhtmlMap, []⟩,
      ⟨some c!"http://www.w3.org/1999/xhtml", some c!"xhtml", c!"div", [], xhtmlMap, [⟨none, none, c!"class", c!"a"⟩]⟩,
      ⟨some c!"http://www.w3.org/1999/xhtml", some c!"xhtml", c!"br", [], xhtmlMap, []⟩] := rfl
    rw [e] at hi
    simp only [List.mem_cons, List.not_mem_nil, or_false] at hi
    rcases hi with rfl | rfl | rfl <;> exact ⟨by decide, by decide, by decide⟩
  · intro i hi
    have e : infosOf xhtmlContentEl = [⟨none, none, c!"THE-VALUE", [], xhtmlMap, []⟩,
      ⟨some c!"http://www.w3.org/1999/xhtml", some c!"xhtml", c!"div", [], xhtmlMap, [⟨none, none, c!"class", c!"a"⟩]⟩,
      ⟨some c!"http://www.w3.org/1999/xhtml", some c!"xhtml", c!"br", [], xhtmlMap, []⟩] := rfl
    rw [e] at hi
    simp only [List.mem_cons, List.not_mem_nil, or_false] at hi
    rcases hi with rfl | rfl | rfl <;> (intro d hd; cases hd)
  · intro s hs
    have e : xhtmlContentEl.kids = [.text c!"\n  ", xhtmlEl c!"div" [(c!"class", c!"a")] [.text c!"x < ", xhtmlEl c!"br" [] [], .text c!" y"], .text c!"\n"] := rfl
    rw [e] at hs
    simp only [List.mem_cons, List.not_mem_nil, or_false, Node.text.injEq, xhtmlEl, reduceCtorEq, false_or] at hs
    rcases hs with rfl | rfl <;> decide

example : ∃ s, stringifyNamespacedChildren xhtmlContentEl = .ok s ∧ (∀ i ∈ infosOfAll xhtmlContentEl.kids, InfoOk i) ∧
    (∀ d ∈ xhtmlContentEl.nsmap, ∀ p, d.1 = some p → NameOk p) := by
  refine ⟨_, rfl, ?_, ?_⟩
  · intro i hi
    have e : infosOfAll xhtmlContentEl.kids = [
      ⟨some c!"http://www.w3.org/1999/xhtml", some c!"xhtml", c!"div", [], xhtmlMap, [⟨none, none, c!"class", c!"a"⟩]⟩,
      ⟨some c!"http://www.w3.org/1999/xhtml", some c!"xhtml", c!"br", [], xhtmlMap, []⟩] := rfl
    rw [e] at hi
    simp only [List.mem_cons, List.not_mem_nil, or_false] at hi
    rcases hi with rfl | rfl <;> refine ⟨by decide, by decide, ?_⟩ <;>
      (intro d hd; simp only [xhtmlMap, List.mem_singleton] at hd; subst hd; refine ⟨by decide, ?_⟩; intro p hp; cases hp; decide)
  · intro d hd p hp
    simp only [xhtmlContentEl, Node.nsmap, xhtmlMap, List.mem_singleton] at hd
    subst hd
    cases hp
    decide

/-- Content without namespaces: `<p>a</p>b<object/>`. -/
def bareContentEl : Node := .elem ⟨none, none, c!"THE-VALUE", [], [], []⟩
  [.elem ⟨none, none, c!"p", [], [], []⟩ [.text c!"a"], .text c!"b", .elem ⟨none, none, c!"object", [], [], []⟩ []]

example : stringifyChildren bareContentEl = .ok c!"<p>a</p>bb<object></object>" ∧ noSpecialsAll bareContentEl.kids = true ∧
    (∀ i ∈ infosOfAll bareContentEl.kids, InfoOk i) ∧ TopTextsPlain bareContentEl.kids ∧ (∀ t ns, bareContentEl.kids ≠ .text t :: ns) ∧
    topTextLength bareContentEl.kids = 1 := by
  refine ⟨rfl, rfl, ?_, ?_, ?_, rfl⟩
  · intro i hi
    have e : infosOfAll bareContentEl.kids = [⟨none, none, c!"p", [], [], []⟩, ⟨none, none, c!"object", [], [], []⟩] := rfl
    rw [e] at hi
    simp only [List.mem_cons, List.not_mem_nil, or_false] at hi
    rcases hi with rfl | rfl <;> exact ⟨by decide, by decide, by intro d hd; cases hd⟩
  · intro s hs
    simp only [bareContentEl, Node.kids, List.mem_cons, List.not_mem_nil, or_false, Node.text.injEq, reduceCtorEq, false_or] at hs
    subst hs
    decide
  · intro t ns h
    simp [bareContentEl, Node.kids] at h

end ReqIF

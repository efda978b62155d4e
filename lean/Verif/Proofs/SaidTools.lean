import Verif.Proofs.Xhtml
import Verif.Spec.Said
/-! What an element says, from its name, attributes and children. -/
set_option linter.unusedSimpArgs false
namespace ReqIF.Xsd
open Spec

theorem saidAll_eq : ∀ ns : List Node, saidAll ns = (ns.filter (fun k => !k.isText)).map said
  | [] => by rw [saidAll]; rfl
  | .text s :: ns => by rw [saidAll, saidAll_eq ns]; rfl
  | .elem i ks :: ns => by rw [saidAll, saidAll_eq ns]; rfl; all_goals simp
  | .comment s :: ns => by rw [saidAll, saidAll_eq ns]; rfl; all_goals simp
  | .pi a b :: ns => by rw [saidAll, saidAll_eq ns]; rfl; all_goals simp

theorem saidAll_children (n : Node) : saidAll n.kids = n.children.map said := saidAll_eq n.kids

/-- An element with attributes and children by name. -/
def recordOf (tag : Str) (vs : List (Str × Str)) (ks : List Said) : Said := .record tag (look vs) (byName ks)

/-- An element with a list. -/
def listOf (tag : Str) (ks : List Said) : Said := .list tag (fun _ => none) ks

/-- An element with a text. -/
def textSaid (tag : Str) (o : Option Str) : Said := .text tag (fun _ => none) o

/-- A reference in its container. -/
def refOf (outer inner : Str) (o : Option Str) : Said := recordOf outer [] [textSaid inner o]

/-- The names of elements that are no record. -/
def isRecordName (name : Str) : Bool := !(xhtmlNames.contains name || holdsText name || listNames.contains name)
def isListName (name : Str) : Bool := !(xhtmlNames.contains name || holdsText name) && listNames.contains name
def isTextName (name : Str) : Bool := !xhtmlNames.contains name && holdsText name

theorem said_record {i : Info} {ks : List Node} (h : isRecordName i.name = true) :
    said (.elem i ks) = .record i.name (Node.elem i ks).attr? (byName ((Node.elem i ks).children.map said)) := by
  unfold isRecordName at h
  simp only [Bool.not_eq_true', Bool.or_eq_false_iff] at h
  rw [said, h.1.1, h.1.2, h.2]
  simp only [Bool.false_eq_true, if_false]
  rw [← saidAll_children]
  rfl

theorem said_list {i : Info} {ks : List Node} (h : isListName i.name = true) :
    said (.elem i ks) = .list i.name (Node.elem i ks).attr? ((Node.elem i ks).children.map said) := by
  unfold isListName at h
  simp only [Bool.not_eq_true', Bool.or_eq_false_iff, Bool.and_eq_true] at h
  rw [said, h.1.1, h.1.2, h.2]
  simp only [Bool.false_eq_true, if_false, if_true]
  rw [← saidAll_children]
  rfl

theorem said_text {i : Info} {ks : List Node} (h : isTextName i.name = true) :
    said (.elem i ks) = .text i.name (Node.elem i ks).attr? (Node.elem i ks).text? := by
  unfold isTextName at h
  simp only [Bool.not_eq_true', Bool.or_eq_false_iff, Bool.and_eq_true] at h
  rw [said, h.1, h.2]
  simp only [Bool.false_eq_true, if_false, if_true]

theorem said_xhtml {i : Info} {ks : List Node} (h : xhtmlNames.contains i.name = true) :
    said (.elem i ks) = .xhtml i.name (Node.elem i ks).attr? (treesOf ks) := by
  rw [said, h]
  simp only [if_true]

theorem said_name {i : Info} {ks : List Node} : (said (.elem i ks)).name = i.name := by
  rw [said]
  split
  · rfl
  · split
    · rfl
    · split <;> rfl

variable {n : Node} {tag : Str} {vs : List (Str × Str)} {cs : List Node}

theorem look_none : look [] = fun _ => none := by
  funext k
  rfl

/-- A printed element says this. -/
theorem _root_.ReqIF.IsEl.saysRecord (h : IsEl n tag vs cs) (ht : isRecordName tag = true) : said n = recordOf tag vs (cs.map said) := by
  have h1 := h.attr
  have h2 := h.children
  obtain ⟨i, ks, rfl, rfl⟩ := h.named
  rw [said_record ht, h2]
  unfold recordOf
  congr 1
  funext k
  exact h1 k

theorem _root_.ReqIF.IsEl.saysList (h : IsEl n tag [] cs) (ht : isListName tag = true) : said n = listOf tag (cs.map said) := by
  have h1 := h.attr
  have h2 := h.children
  obtain ⟨i, ks, rfl, rfl⟩ := h.named
  rw [said_list ht, h2]
  unfold listOf
  congr 1
  funext k
  exact h1 k

theorem _root_.ReqIF.IsEl.saysText (h : IsEl n tag [] []) (ht : isTextName tag = true) : said n = textSaid tag n.text? := by
  have h1 := h.attr
  obtain ⟨i, ks, rfl, rfl⟩ := h.named
  rw [said_text ht]
  unfold textSaid
  congr 1
  funext k
  exact h1 k

/-- A printed reference. -/
theorem _root_.ReqIF.IsEl.saysRef {d r : Node} {outer inner : Str} {o : Option Str} (hd : IsEl d outer [] [r]) (hr : IsEl r inner [] [])
    (ht : r.text? = o) (h1 : isRecordName outer = true) (h2 : isTextName inner = true) : said d = refOf outer inner o := by
  rw [hd.saysRecord h1, List.map_cons, List.map_nil, hr.saysText h2, ht]
  rfl

/-! ## XHTML -/

theorem plainAttrs_keys (as : List (Str × Str)) : (plainAttrs as).map (fun a => (a.key, a.value)) = as := by
  unfold plainAttrs
  rw [List.map_map]
  conv => rhs; rw [← List.map_id as]
  rfl

mutual
theorem treeOf_final {Γ : Ctx} (hp : isNCName Γ.pfx = true) : ∀ t : XTree, treeOf ((t.xml Γ.pfx).final Γ) = t
  | .elem n as ks => by
    rw [XTree.xml, Xml.final, treeOf, info_qual hp, treesOf_final hp ks]
    dsimp only
    rw [plainAttrs_keys]
  | .text s => by rw [XTree.xml, Xml.final, treeOf]

theorem treesOf_final {Γ : Ctx} (hp : isNCName Γ.pfx = true) : ∀ ts : List XTree, treesOf (finalList Γ (xmlAll Γ.pfx ts)) = ts
  | [] => by rw [xmlAll, finalList, treesOf]
  | t :: ts => by rw [xmlAll, finalList, treesOf, treeOf_final hp t, treesOf_final hp ts]
end

theorem qual_inj {p a b : Str} (h : qual p a = qual p b) : a = b := by
  unfold qual at h
  exact List.append_cancel_left h

mutual
theorem xml_inj {p : Str} : ∀ t u : XTree, t.xml p = u.xml p → t = u
  | .elem n as ks, .elem m bs ls, h => by
    rw [XTree.xml, XTree.xml] at h
    injection h with h1 h2 h3
    rw [qual_inj h1, h2, xmlAll_inj ks ls h3]
  | .elem n as ks, .text s, h => by rw [XTree.xml, XTree.xml] at h; cases h
  | .text s, .elem n as ks, h => by rw [XTree.xml, XTree.xml] at h; cases h
  | .text s, .text t, h => by rw [XTree.xml, XTree.xml] at h; injection h with h; rw [h]

theorem xmlAll_inj {p : Str} : ∀ ts us : List XTree, xmlAll p ts = xmlAll p us → ts = us
  | [], [], _ => rfl
  | [], u :: us, h => by rw [xmlAll, xmlAll] at h; cases h
  | t :: ts, [], h => by rw [xmlAll, xmlAll] at h; cases h
  | t :: ts, u :: us, h => by
    rw [xmlAll, xmlAll] at h
    injection h with h1 h2
    rw [xml_inj t u h1, xmlAll_inj ts us h2]
end

/-- Content is determined by its printed form. -/
theorem printAll_inj {p : Str} (hp : isNCName p = true) {ts us : List XTree} (h1 : AllWF ts) (h2 : noAdjacentText ts = true)
    (h3 : AllWF us) (h4 : noAdjacentText us = true) (h : printAll p ts = printAll p us) : ts = us := by
  have key : ∀ {ts : List XTree}, AllWF ts → noAdjacentText ts = true →
      readRaw (c!"<a>" ++ printAll p ts ++ c!"</a>") = some (none, [.elem c!"a" [] (xmlAll p ts)]) := by
    intro ts h1 h2
    have e : (Src.elem c!"a" [] (srcAll p ts)).render = c!"<a>" ++ printAll p ts ++ c!"</a>" := by
      rw [Src.render, srcAll_render]
      simp [attrsText]
    rw [← e, readRaw_src]
    · rw [Src.eval, decodeAttrs, srcAll_eval ts h1 h2]
      rfl
    · rfl
    · rw [Src.lexOk, srcAll_lex hp ts h1]
      decide
    · rw [e]
      have := srcAll_cr hp ts h1
      rw [srcAll_render] at this
      simp only [List.mem_append, not_or]
      exact ⟨⟨by decide, this⟩, by decide⟩
  have e1 := key h1 h2
  have e2 := key h3 h4
  rw [h, e2] at e1
  simp only [Option.some.injEq, Prod.mk.injEq, List.cons.injEq, Xml.elem.injEq, true_and, and_true] at e1
  exact (xmlAll_inj _ _ e1).symm

open Classical in
/-- The content with this printed form. -/
noncomputable def contentFor (p s : Str) : List XTree :=
  if h : ∃ ts, AllWF ts ∧ noAdjacentText ts = true ∧ printAll p ts = s then h.choose else []

theorem contentFor_eq {p : Str} (hp : isNCName p = true) {ts : List XTree} (h1 : AllWF ts) (h2 : noAdjacentText ts = true) :
    contentFor p (printAll p ts) = ts := by
  unfold contentFor
  have h : ∃ us, AllWF us ∧ noAdjacentText us = true ∧ printAll p us = printAll p ts := ⟨ts, h1, h2, rfl⟩
  rw [dif_pos h]
  obtain ⟨a, b, c⟩ := h.choose_spec
  exact printAll_inj hp a b h1 h2 c

/-- An element with XHTML content. -/
noncomputable def xhtmlSaid (tag p s : Str) : Said := .xhtml tag (fun _ => none) (contentFor p s)

theorem xhtml_said {Γ : Ctx} (hp : isNCName Γ.pfx = true) {ts : List XTree} (h1 : AllWF ts) (h2 : noAdjacentText ts = true)
    {tag : Str} (ht : xhtmlNames.contains tag = true) :
    said (.elem ⟨none, none, tag, [], Γ.keep, []⟩ (finalList Γ (xmlAll Γ.pfx ts))) = xhtmlSaid tag Γ.pfx (printAll Γ.pfx ts) := by
  rw [said_xhtml ht, treesOf_final hp]
  unfold xhtmlSaid
  rw [contentFor_eq hp h1 h2]
  rfl

end ReqIF.Xsd

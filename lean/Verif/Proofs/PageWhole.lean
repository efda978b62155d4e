import Verif.Proofs.PageParts
import Verif.Proofs.GrammarDecl
/-!
# The whole dump page
-/
namespace ReqIF.Page
open Grammar Spec Dump

theorem lines_plain : ∀ {s : Str}, '\r' ∉ s → Lines s s
  | [], _ => .none
  | c :: s, h => by
    rw [List.mem_cons, not_or] at h
    exact .other (fun e => h.1 e.symm) (lines_plain h.2)

theorem adds_parts {repr : Str → Str} {b : Bundle} {dt st sp : Str} (h1 : dataTypesPart b.coreContent = .ok dt)
    (h2 : specTypesPart b.coreContent = .ok st) (h3 : specificationsPart repr b = .ok sp)
    (hw : AllWell (contentStrings repr b.lookup b.coreContent)) :
    ∃ l1 l2 l3, Adds dt l1 ∧ Adds st l2 ∧ Adds sp l3 ∧ contentStrings repr b.lookup b.coreContent = l1 ++ l2 ++ l3 := by
  have blank2 : Adds c!"\n  \n  " [] := Adds.space (by decide +kernel)
  have blank3 : Adds c!"\n\n\n" [] := Adds.space (by decide +kernel)
  unfold specificationsPart at h3
  match hc : b.coreContent with
  | none =>
    rw [hc] at h1 h2 h3
    cases h1; cases h2; cases h3
    exact ⟨[], [], [], Adds.nil, Adds.nil, Adds.nil, rfl⟩
  | some none =>
    rw [hc] at h1 h2 h3
    cases h1; cases h2; cases h3
    exact ⟨[], [], [], blank2, blank2, Adds.space (by decide +kernel), rfl⟩
  | some (some c) =>
    rw [hc] at h1 h2 h3 hw
    dsimp only at h3
    unfold dataTypesPart loopOver at h1
    unfold specTypesPart loopOver at h2
    dsimp only at h1 h2
    cases hd : c.dataTypes with
    | none => rw [hd] at h1; cases h1
    | some ds =>
    cases ht : c.specTypes with
    | none => rw [ht] at h2; cases h2
    | some ts =>
    cases hs : c.specifications with
    | none => rw [hs] at h3; cases h3
    | some ss =>
    rw [hd] at h1; cases h1
    rw [ht] at h2; cases h2
    rw [hs] at h3
    dsimp only at h3
    cases hp : specificationParts repr b 0 ss with
    | error e => rw [hp] at h3; cases h3
    | ok parts =>
      rw [hp] at h3
      cases h3
      have hall : b.specifications? = some ss := by
        unfold Bundle.specifications?
        rw [hc]
        exact hs
      simp only [contentStrings, hd, ht, hs, Option.getD_some] at hw ⊢
      obtain ⟨w12, w3⟩ := allWell_append hw
      obtain ⟨w1, w2⟩ := allWell_append w12
      refine ⟨_, _, _, ?_, ?_, ?_, rfl⟩
      · refine Adds.of (blank2.append ((adds_dataTypes w1).append blank2)) ?_ ?_
        · simp only [List.append_assoc]; rfl
        · simp
      · refine Adds.of (blank2.append ((adds_specTypes w2).append blank2)) ?_ ?_
        · simp only [List.append_assoc]; rfl
        · simp
      · refine Adds.of (blank3.append ((adds_specifications hall (i := 0) (by simp) hp w3).append blank3)) ?_ ?_
        · simp only [List.append_assoc]; rfl
        · simp

/-- The style sheet of the page. -/
def styleText : Str :=
  c!"\n    table {\n      margin: 10px;\n      border-collapse: collapse;\n    }\n    td {\n      border: 1px #bbb solid;\n    }\n" ++
  c!"    .level-2 {\n      margin-left: 20px;\n    }\n    .level-3 {\n      margin-left: 40px;\n    }\n" ++
  c!"    .level-4 {\n      margin-left: 60px;\n    }\n    .level-5 {\n      margin-left: 80px;\n    }\n  "

/-- What stands in the head of the page. -/
def headText : Str := c!"\n  " ++ (c!"<meta charset=\"UTF-8\"/>" ++ (c!"\n  \n  \n  \n  " ++ (c!"<title>...</title>" ++
    (c!"\n\n  " ++ ((c!"<style>" ++ styleText ++ c!"</style>") ++ c!"\n")))))

theorem adds_headText : Adds headText [] := by
  refine Adds.append (l := []) (l' := []) (Adds.space (by decide +kernel)) ?_
  refine Adds.append (l := []) (l' := []) ?_ ?_
  · refine Adds.of (Adds.empty (n := c!"meta") (as := [(c!"charset", c!"UTF-8")]) (by decide +kernel) (by decide)) ?_ rfl
    simp [attrsText]
  refine Adds.append (l := []) (l' := []) (Adds.space (by decide +kernel)) ?_
  refine Adds.append (l := []) (l' := []) ?_ ?_
  · refine Adds.of (Adds.fixed (n := c!"title") (as := []) (t := c!"...") (by decide +kernel) (by decide) (by decide +kernel)) ?_ rfl
    simp [tagText, attrsText]
  refine Adds.append (l := []) (l' := []) (Adds.space (by decide +kernel)) ?_
  refine Adds.append (l := []) (l' := []) ?_ (Adds.space (by decide +kernel))
  refine Adds.of (Adds.fixed (n := c!"style") (as := []) (t := styleText) (by decide +kernel) (by decide) (by decide +kernel)) ?_ rfl
  simp [tagText, attrsText]

theorem adds_head : Adds (c!"<head>" ++ headText ++ c!"</head>") [] := by
  refine Adds.of (Adds.elem (n := c!"head") (as := []) (by decide +kernel) (by decide) adds_headText) ?_ rfl
  simp [tagText, attrsText]

theorem adds_body {t : Str} {l : List (Str × Str)} (h : Adds t l) : Adds (c!"<body class=\"\">" ++ t ++ c!"</body>") l := by
  refine Adds.of (Adds.elem (n := c!"body") (as := [(c!"class", [])]) (by decide +kernel) (by decide) h) ?_ rfl
  simp [tagText, attrsText]

/-- The text of the element `html`. -/
theorem page_html {t : Str} {l : List (Str × Str)} (h : Adds t l) :
    ∃ ks m, File (c!"<html lang=\"en\">" ++ t ++ c!"</html>" ++ c!"\n") none [.elem c!"html" [(c!"lang", c!"en")] ks] ∧
      allShownCells ks = m ∧ CellsShow l m := by
  obtain ⟨h0, h⟩ := h
  obtain ⟨ks, m, h1, h2, h3⟩ := h [] [] (.marked .none)
  have he := element_of (n := c!"html") (as := [(c!"lang", c!"en")]) (by decide +kernel) h1
  refine ⟨ks, m, ?_, by rw [h2]; rfl, h3⟩
  refine ⟨_, _, .inl ⟨rfl, by simp⟩, lines_plain ?_, ?_⟩
  · simp [h0]
  · refine ⟨[], [], _, c!"\n", [], _, [], ?_, .inl ⟨rfl, rfl⟩, .none, he, .space .none (by decide), rfl⟩
    simp [tagText, attrsText]

theorem pageHead_eq : pageHead = doctype ++ (c!"<html lang=\"en\">" ++ (c!"\n\n" ++ ((c!"<head>" ++ headText ++ c!"</head>") ++ (c!"\n\n" ++ (c!"<body class=\"\">" ++ (c!"\n\n" ++
    ((c!"<h1>" ++ c!"&lt;REQ-IF&gt;" ++ c!"</h1>") ++ (c!"\n  " ++ ((c!"<h2 class=\"level-2\">" ++ c!"&lt;THE-HEADER&gt;" ++ c!"</h2>") ++ c!"\n  "))))))))) := by
  decide +kernel

theorem dataTypesHead_eq : dataTypesHead = c!"\n\n" ++ ((c!"<h2 class=\"level-2\">" ++ c!"&lt;CORE-CONTENT&gt;" ++ c!"</h2>") ++
    (c!"\n" ++ ((c!"<h3 class=\"level-3\">" ++ c!"&lt;REQ-IF-CONTENT&gt;" ++ c!"</h3>") ++
    (c!"\n\n" ++ ((c!"<h4 class=\"level-4\">" ++ c!"&lt;DATATYPES&gt;" ++ c!"</h4>") ++ c!"\n  "))))) := by
  decide +kernel

theorem specTypesHead_eq : specTypesHead = c!"\n\n" ++ ((c!"<h4 class=\"level-4\">" ++ c!"&lt;SPEC-TYPES&gt;" ++ c!"</h4>") ++ c!"\n  ") := by
  decide +kernel

theorem middle_eq : middle = c!"\n\n" ++ ((c!"<h4 class=\"level-4\">" ++ c!"&lt;SPEC-OBJECTS&gt;" ++ c!"</h4>") ++
    (c!"\n" ++ ((c!"<h4 class=\"level-4\">" ++ c!"&lt;SPEC-RELATIONS&gt;" ++ c!"</h4>") ++
    (c!"\n" ++ ((c!"<h4 class=\"level-4\">" ++ c!"&lt;SPECIFICATIONS&gt;" ++ c!"</h4>") ++
    (c!"\n\n" ++ ((c!"<h2 class=\"level-2\">" ++ c!"&lt;TOOL-EXTENSIONS&gt;" ++ c!"</h2>") ++
    (c!"\n\n" ++ ((c!"<" ++ c!"hr" ++ attrsText [] ++ c!"/>") ++ c!"\n\n"))))))))) := by
  decide +kernel

theorem pageEnd_eq : pageEnd = c!"\n" ++ (c!"</body>" ++ (c!"\n" ++ c!"</html>")) := by
  decide +kernel

set_option maxRecDepth 20000 in
theorem page_whole {repr : Str → Str} {b : Bundle} {page : Str} (h : dumpText repr b = .ok page) (hw : AllWell (pageStrings repr b)) :
    ∃ t, Adds t (pageStrings repr b) ∧ page = doctype ++ (c!"<html lang=\"en\">" ++ t ++ c!"</html>" ++ c!"\n") := by
  unfold dumpText at h
  obtain ⟨dt, h1, h⟩ := py_bind_inv h
  obtain ⟨st, h2, h⟩ := py_bind_inv h
  obtain ⟨sp, h3, h⟩ := py_bind_inv h
  rw [py_pure] at h
  cases h
  have hw' : AllWell (headerStrings b.header ++ contentStrings repr b.lookup b.coreContent) := fun x hx => hw x (List.mem_cons_of_mem _ hx)
  obtain ⟨w1, w2⟩ := allWell_append hw'
  obtain ⟨l1, l2, l3, a1, a2, a3, e⟩ := adds_parts h1 h2 h3 w2
  have n2 : Adds c!"\n\n" [] := Adds.space (by decide +kernel)
  have n1 : Adds c!"\n" [] := Adds.space (by decide +kernel)
  have hd := adds_header w1
  have body := adds_body (n2.append ((adds_h1 (s := c!"&lt;REQ-IF&gt;") (fixed_well (by decide +kernel))).append
    ((Adds.space (w := c!"\n  ") (by decide +kernel)).append ((adds_h2 (t := c!"&lt;THE-HEADER&gt;") (by decide +kernel)).append
    ((Adds.space (w := c!"\n  ") (by decide +kernel)).append (hd.append
    (n2.append ((adds_h2 (t := c!"&lt;CORE-CONTENT&gt;") (by decide +kernel)).append
    (n1.append ((adds_h3 (t := c!"&lt;REQ-IF-CONTENT&gt;") (by decide +kernel)).append
    (n2.append ((adds_h4 (t := c!"&lt;DATATYPES&gt;") (by decide +kernel)).append
    ((Adds.space (w := c!"\n  ") (by decide +kernel)).append (a1.append
    (n2.append ((adds_h4 (t := c!"&lt;SPEC-TYPES&gt;") (by decide +kernel)).append
    ((Adds.space (w := c!"\n  ") (by decide +kernel)).append (a2.append
    (n2.append ((adds_h4 (t := c!"&lt;SPEC-OBJECTS&gt;") (by decide +kernel)).append
    (n1.append ((adds_h4 (t := c!"&lt;SPEC-RELATIONS&gt;") (by decide +kernel)).append
    (n1.append ((adds_h4 (t := c!"&lt;SPECIFICATIONS&gt;") (by decide +kernel)).append
    (n2.append ((adds_h2 (t := c!"&lt;TOOL-EXTENSIONS&gt;") (by decide +kernel)).append
    (n2.append ((Adds.empty (n := c!"hr") (as := []) (by decide +kernel) (by decide)).append
    (n2.append (a3.append n1))))))))))))))))))))))))))))))
  have html := n2.append (adds_head.append (n2.append (body.append n1)))
  refine ⟨_, Adds.of html rfl ?_, ?_⟩
  · simp [pageStrings, e]
  · rw [pageHead_eq, dataTypesHead_eq, specTypesHead_eq, middle_eq, pageEnd_eq]
    simp only [List.append_assoc]

end ReqIF.Page

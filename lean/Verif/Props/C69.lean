import Verif.Model.Cli
import Verif.Spec.Cli
import Verif.Props.C58_60
import Verif.Props.C64
import Verif.Props.C67
/-!
# C69: the program runs the command it is asked to run, and changes nothing else
-/
set_option linter.unusedSimpArgs false
namespace ReqIF.Cli
open Spec

/-! ## What an argument is taken for -/

theorem optionName_self {a : Str} (h : '=' ∉ a) : optionName a = a := by
  unfold optionName
  have e := List.takeWhile_append_of_pos (p := (· != '=')) (l₁ := a) (l₂ := []) (by
    intro c hc
    simp only [bne_iff_ne, ne_eq]
    rintro rfl
    exact h hc)
  simpa using e

theorem optionName_of {o v : Str} (h : '=' ∉ o) : optionName (o ++ '=' :: v) = o := by
  unfold optionName
  rw [List.takeWhile_append_of_pos]
  · simp
  · intro c hc
    simp only [bne_iff_ne, ne_eq]
    rintro rfl
    exact h hc

theorem optionName_split : ∀ {a : Str}, '=' ∈ a → ∃ v, a = optionName a ++ '=' :: v
  | c :: cs, h => by
    by_cases hc : c = '='
    · subst hc
      exact ⟨cs, by simp [optionName]⟩
    · have h' : '=' ∈ cs := by
        rcases List.mem_cons.1 h with e | e
        · exact absurd e.symm hc
        · exact e
      obtain ⟨v, hv⟩ := optionName_split h'
      refine ⟨v, ?_⟩
      have e : optionName (c :: cs) = c :: optionName cs := by
        unfold optionName
        rw [List.takeWhile_cons_of_pos (by simpa using hc)]
      rw [e, List.cons_append, ← hv]

theorem longHelp_noEq {o : Str} (h : LongHelp o) : '=' ∉ o := by
  intro hc
  exact absurd (h.2.subset hc) (by decide)

theorem schemaOption_noEq {o : Str} (h : SchemaOption o) : '=' ∉ o := by
  intro hc
  exact absurd (h.2.subset hc) (by decide)

theorem misused_iff (strict : Bool) (a : Str) :
    Misused strict a ↔ '=' ∈ a ∧ (LongHelp (optionName a) ∨ strict = true ∧ SchemaOption (optionName a)) := by
  constructor
  · rintro ⟨o, v, rfl, h⟩
    have hn : '=' ∉ o := by
      rcases h with h | ⟨-, h⟩
      · exact longHelp_noEq h
      · exact schemaOption_noEq h
    rw [optionName_of hn]
    exact ⟨by simp, h⟩
  · rintro ⟨h1, h2⟩
    obtain ⟨v, hv⟩ := optionName_split h1
    exact ⟨_, v, hv, h2⟩

/-- The shapes of arguments. -/
theorem arg_shapes (a : Str) : (a.head? ≠ some '-' ∨ a = c!"-") ∨ (∃ rest, a = '-' :: '-' :: rest) ∨ (∃ rest, a = '-' :: 'h' :: rest) ∨
    ∃ c rest, a = '-' :: c :: rest ∧ c ≠ '-' ∧ c ≠ 'h' := by
  match a with
  | [] => exact Or.inl (Or.inl (by simp))
  | [c] =>
    by_cases h : c = '-'
    · subst h; exact Or.inl (Or.inr rfl)
    · exact Or.inl (Or.inl (by simpa using h))
  | c :: d :: rest =>
    by_cases h : c = '-'
    · subst h
      by_cases h1 : d = '-'
      · subst h1; exact Or.inr (Or.inl ⟨rest, rfl⟩)
      · by_cases h2 : d = 'h'
        · subst h2; exact Or.inr (Or.inr (Or.inl ⟨rest, rfl⟩))
        · exact Or.inr (Or.inr (Or.inr ⟨d, rest, rfl, h1, h2⟩))
    · exact Or.inl (Or.inl (by simpa using h))

theorem argKind_plain {a : Str} (strict : Bool) (h : a.head? ≠ some '-' ∨ a = c!"-") : argKind strict a = .positional := by
  unfold argKind
  rw [if_pos]
  rcases h with h | h
  · rw [Bool.or_eq_true]; exact Or.inl (bne_iff_ne.2 h)
  · rw [h]; decide

theorem argKind_long (strict : Bool) (rest : Str) : argKind strict ('-' :: '-' :: rest) =
    (if (optionName ('-' :: '-' :: rest)).isPrefixOf c!"--help" then
      (if ('-' :: '-' :: rest).contains '=' then .wrong else .help)
     else if strict && (optionName ('-' :: '-' :: rest)).isPrefixOf schemaFlag then
      (if ('-' :: '-' :: rest).contains '=' then .wrong else .flag)
     else if ('-' :: '-' :: rest).contains ' ' then .positional else .unknown) := by
  unfold argKind
  rw [if_neg (by simp), if_pos (by simp)]

theorem argKind_h (strict : Bool) (rest : Str) : argKind strict ('-' :: 'h' :: rest) = .help := by
  unfold argKind
  rw [if_neg (by simp), if_neg (by simp), if_pos (by simp)]

theorem argKind_short (strict : Bool) {c : Char} (rest : Str) (h1 : c ≠ '-') (h2 : c ≠ 'h') : argKind strict ('-' :: c :: rest) =
    (if ('-' :: c :: rest).contains ' ' then .positional else .unknown) := by
  unfold argKind
  rw [if_neg (by simp), if_neg (by simpa using fun e => h1 e.symm), if_neg (by simpa using fun e => h2 e.symm)]

/-- The name of a usual long option has a first letter. -/
theorem optionName_long {rest : Str} (hu : UsualArg ('-' :: '-' :: rest)) : ∃ c t, optionName ('-' :: '-' :: rest) = '-' :: '-' :: c :: t := by
  cases rest with
  | nil => exact absurd rfl hu.1
  | cons c t =>
    have hc : c ≠ '=' := by
      rintro rfl
      exact hu.2.1 ⟨t, rfl⟩
    refine ⟨c, optionName t, ?_⟩
    unfold optionName
    rw [List.takeWhile_cons_of_pos (by decide), List.takeWhile_cons_of_pos (by decide), List.takeWhile_cons_of_pos (by simpa using hc)]

theorem prefix_help {rest : Str} (hu : UsualArg ('-' :: '-' :: rest)) :
    (optionName ('-' :: '-' :: rest)).isPrefixOf c!"--help" = true ↔ LongHelp (optionName ('-' :: '-' :: rest)) := by
  obtain ⟨c, t, e⟩ := optionName_long hu
  rw [e, List.isPrefixOf_iff_prefix]
  constructor
  · intro h
    refine ⟨?_, h⟩
    obtain ⟨u, hu⟩ := h
    injection hu with _ hu
    injection hu with _ hu
    injection hu with hu
    rw [hu]
    exact ⟨t, rfl⟩
  · exact fun h => h.2

theorem prefix_schema {rest : Str} (hu : UsualArg ('-' :: '-' :: rest)) :
    (optionName ('-' :: '-' :: rest)).isPrefixOf schemaFlag = true ↔ SchemaOption (optionName ('-' :: '-' :: rest)) := by
  obtain ⟨c, t, e⟩ := optionName_long hu
  rw [e, List.isPrefixOf_iff_prefix]
  constructor
  · intro h
    refine ⟨?_, h⟩
    obtain ⟨u, hu⟩ := h
    injection hu with _ hu
    injection hu with _ hu
    injection hu with hu
    rw [hu]
    exact ⟨t, rfl⟩
  · exact fun h => h.2

theorem longHelp_shape {a : Str} (h : LongHelp a) : ∃ t, a = '-' :: '-' :: 'h' :: t := by
  obtain ⟨⟨t, ht⟩, -⟩ := h
  exact ⟨t, ht.symm⟩

theorem schemaOption_shape {a : Str} (h : SchemaOption a) : ∃ t, a = '-' :: '-' :: 'u' :: t := by
  obtain ⟨⟨t, ht⟩, -⟩ := h
  exact ⟨t, ht.symm⟩

/-- Any argument that begins so is usual. -/
theorem usual_long {c : Char} (t : Str) (h : c ≠ '=') : UsualArg ('-' :: '-' :: c :: t) := by
  refine ⟨by simp, ?_, ?_, ?_⟩
  · rintro ⟨u, hu⟩
    injection hu with _ hu
    injection hu with _ hu
    injection hu with hu
    exact h hu.symm
  · intro rest hr; cases hr
  · intro d rest hr
    cases hr
    decide

theorem argKind_help {a : Str} (strict : Bool) (h : IsHelp a) : argKind strict a = .help := by
  rcases h with h | ⟨n, rfl⟩
  · obtain ⟨t, rfl⟩ := longHelp_shape h
    have hu := usual_long (c := 'h') t (by decide)
    have hn := longHelp_noEq h
    rw [argKind_long, if_pos ((prefix_help hu).2 (by rw [optionName_self hn]; exact h)), if_neg (by simpa using hn)]
  · exact argKind_h strict (List.replicate n 'h')

theorem not_both {o : Str} (h1 : LongHelp o) (h2 : SchemaOption o) : False := by
  obtain ⟨t, rfl⟩ := longHelp_shape h1
  obtain ⟨u, hu⟩ := schemaOption_shape h2
  cases hu

theorem argKind_flag {a : Str} (h : SchemaOption a) : argKind true a = .flag := by
  obtain ⟨t, rfl⟩ := schemaOption_shape h
  have hu := usual_long (c := 'u') t (by decide)
  have hn := schemaOption_noEq h
  rw [argKind_long, if_neg (by rw [prefix_help hu, optionName_self hn]; exact fun h' => not_both h' h),
    if_pos (by rw [Bool.true_and, prefix_schema hu, optionName_self hn]; exact h), if_neg (by simpa using hn)]

theorem misused_long {strict : Bool} {a : Str} (h : Misused strict a) : ∃ c t, a = '-' :: '-' :: c :: t ∧ c ≠ '=' := by
  obtain ⟨o, v, rfl, h⟩ := h
  rcases h with h | ⟨-, h⟩
  · obtain ⟨t, rfl⟩ := longHelp_shape h
    exact ⟨'h', t ++ '=' :: v, rfl, by decide⟩
  · obtain ⟨t, rfl⟩ := schemaOption_shape h
    exact ⟨'u', t ++ '=' :: v, rfl, by decide⟩

theorem argKind_wrong {strict : Bool} {a : Str} (h : Misused strict a) : argKind strict a = .wrong := by
  obtain ⟨c, t, rfl, hc⟩ := misused_long h
  have hu := usual_long t hc
  obtain ⟨h1, h2⟩ := (misused_iff _ _).1 h
  rw [argKind_long]
  rcases h2 with h2 | ⟨hs, h2⟩
  · rw [if_pos ((prefix_help hu).2 h2), if_pos (by simpa using h1)]
  · rw [if_neg (by rw [prefix_help hu]; exact fun h' => not_both h' h2), if_pos (by rw [hs, Bool.true_and, prefix_schema hu]; exact h2),
      if_pos (by simpa using h1)]

/-- What the parser takes an argument for is what it is. -/
theorem argKind_spec (strict : Bool) {a : Str} (hu : UsualArg a) :
    (argKind strict a = .help → IsHelp a) ∧ (argKind strict a = .wrong → Misused strict a) ∧
    (argKind strict a = .flag → strict = true ∧ SchemaOption a) ∧ (argKind strict a = .positional → NoOption strict a) := by
  rcases arg_shapes a with h | ⟨rest, rfl⟩ | ⟨rest, rfl⟩ | ⟨c, rest, rfl, h1, h2⟩
  · rw [argKind_plain strict h]
    refine ⟨fun h => (by cases h), fun h => (by cases h), fun h => (by cases h), fun _ => ?_⟩
    rcases h with h | h
    · left
      rintro rest rfl
      exact h rfl
    · exact Or.inr (Or.inl h)
  · rw [argKind_long]
    by_cases h1 : (optionName ('-' :: '-' :: rest)).isPrefixOf c!"--help" = true
    · have h1' := (prefix_help hu).1 h1
      rw [if_pos h1]
      by_cases he : '=' ∈ ('-' :: '-' :: rest)
      · rw [if_pos (by simpa using he)]
        exact ⟨fun h => (by cases h), fun _ => (misused_iff _ _).2 ⟨he, Or.inl h1'⟩, fun h => (by cases h), fun h => (by cases h)⟩
      · rw [if_neg (by simpa using he)]
        rw [optionName_self he] at h1'
        exact ⟨fun _ => Or.inl h1', fun h => (by cases h), fun h => (by cases h), fun h => (by cases h)⟩
    · have h1' : ¬ LongHelp (optionName ('-' :: '-' :: rest)) := by rw [← prefix_help hu]; exact h1
      rw [if_neg h1]
      by_cases h2 : (strict && (optionName ('-' :: '-' :: rest)).isPrefixOf schemaFlag) = true
      · rw [if_pos h2]
        rw [Bool.and_eq_true, prefix_schema hu] at h2
        by_cases he : '=' ∈ ('-' :: '-' :: rest)
        · rw [if_pos (by simpa using he)]
          exact ⟨fun h => (by cases h), fun _ => (misused_iff _ _).2 ⟨he, Or.inr h2⟩, fun h => (by cases h), fun h => (by cases h)⟩
        · rw [if_neg (by simpa using he)]
          rw [optionName_self he] at h2
          exact ⟨fun h => (by cases h), fun h => (by cases h), fun _ => h2, fun h => (by cases h)⟩
      · rw [if_neg h2]
        rw [Bool.and_eq_true, prefix_schema hu] at h2
        have hm : ¬ Misused strict ('-' :: '-' :: rest) := by
          rw [misused_iff]
          rintro ⟨-, h | h⟩
          · exact h1' h
          · exact h2 h
        by_cases hs : ' ' ∈ ('-' :: '-' :: rest)
        · rw [if_pos (by simpa using hs)]
          exact ⟨fun h => (by cases h), fun h => (by cases h), fun h => (by cases h), fun _ => Or.inr (Or.inr ⟨hs, hu, hm⟩)⟩
        · rw [if_neg (by simpa using hs)]
          exact ⟨fun h => (by cases h), fun h => (by cases h), fun h => (by cases h), fun h => (by cases h)⟩
  · rw [argKind_h]
    refine ⟨fun _ => Or.inr ⟨rest.length, ?_⟩, fun h => (by cases h), fun h => (by cases h), fun h => (by cases h)⟩
    rw [List.replicate_succ]
    have := List.eq_replicate_iff.2 ⟨rfl, hu.2.2.1 rest rfl⟩
    rw [← this]
  · rw [argKind_short strict rest h1 h2]
    have hm : ¬ Misused strict ('-' :: c :: rest) := by
      intro hm
      obtain ⟨d, t, e, -⟩ := misused_long hm
      cases e
      exact h1 rfl
    by_cases hs : ' ' ∈ ('-' :: c :: rest)
    · rw [if_pos (by simpa using hs)]
      exact ⟨fun h => (by cases h), fun h => (by cases h), fun h => (by cases h), fun _ => Or.inr (Or.inr ⟨hs, hu, hm⟩)⟩
    · rw [if_neg (by simpa using hs)]
      exact ⟨fun h => (by cases h), fun h => (by cases h), fun h => (by cases h), fun h => (by cases h)⟩

theorem argKind_positional {strict : Bool} {a : Str} (h : NoOption strict a) : argKind strict a = .positional := by
  rcases h with h | h | ⟨hs, hu, hm⟩
  · apply argKind_plain
    left
    intro e
    cases a with
    | nil => cases e
    | cons c cs => rw [List.head?_cons] at e; cases e; exact h cs rfl
  · exact argKind_plain strict (Or.inr h)
  · cases hk : argKind strict a with
    | positional => rfl
    | wrong => exact absurd ((argKind_spec strict hu).2.1 hk) hm
    | help =>
      exfalso
      rcases (argKind_spec strict hu).1 hk with h | ⟨n, rfl⟩
      · exact absurd (h.2.subset hs) (by decide)
      · rcases List.mem_cons.1 hs with e | e
        · cases e
        · rw [List.mem_replicate] at e
          exact absurd e.2 (by decide)
    | flag => exact absurd (((argKind_spec strict hu).2.2.1 hk).2.2.subset hs) (by decide)
    | unknown =>
      exfalso
      have hc : a.contains ' ' = true := by simpa using hs
      rcases arg_shapes a with h | ⟨rest, rfl⟩ | ⟨rest, rfl⟩ | ⟨c, rest, rfl, h1, h2⟩
      · rw [argKind_plain strict h] at hk; cases hk
      · rw [argKind_long, hc] at hk
        repeat' split at hk
        all_goals first | contradiction | (rename_i h; exact absurd rfl h) | (cases hk; done) | (cases hk; rename_i h; exact absurd rfl h)
      · rw [argKind_h] at hk; cases hk
      · rw [argKind_short strict rest h1 h2, hc] at hk; cases hk

theorem subParser_isSome (a : Str) : (subParser a).isSome = true ↔ a ∈ commandNames := by
  unfold subParser commandNames
  simp only [List.mem_cons, List.not_mem_nil, or_false]
  repeat' split
  all_goals simp_all

theorem subParser_flag {a : Str} {p : SubParser} (h : subParser a = some p) : p.flag = decide (a = c!"validate") := by
  unfold subParser at h
  repeat' split at h
  all_goals first | (cases h; simp_all) | skip
  all_goals cases h

/-! ## The arguments of one command -/

/-- Is the argument a file? -/
def isFile (strict : Bool) (a : Str) : Bool := decide (argKind strict a = .positional)

/-- Without help the parser looks at all arguments. -/
theorem subArgs_scan (name : Str) (p : SubParser) : ∀ (rest files : List Str) (flag extras : Bool),
    (∀ a ∈ rest, argKind p.flag a ≠ .help ∧ argKind p.flag a ≠ .wrong) → files.length ≤ p.files →
    subArgs name p files flag extras rest =
      (if files.length + (rest.filter (isFile p.flag)).length = p.files ∧ extras = false ∧ (∀ a ∈ rest, argKind p.flag a ≠ .unknown) then
        .args ⟨name, (files ++ rest.filter (isFile p.flag))[0]?, (files ++ rest.filter (isFile p.flag))[1]?,
          if p.flag then some (flag || decide (∃ a ∈ rest, argKind p.flag a = .flag)) else none⟩
       else .usage)
  | [], files, flag, extras, _, hl => by
    rw [subArgs]
    by_cases h1 : files.length < p.files
    · rw [if_pos h1, if_neg]
      rintro ⟨h, -⟩
      simp at h
      omega
    · rw [if_neg h1]
      have : files.length = p.files := by omega
      cases extras
      · simp [this]
      · simp
  | a :: rest, files, flag, extras, hh, hl => by
    have hh' : ∀ b ∈ rest, argKind p.flag b ≠ .help ∧ argKind p.flag b ≠ .wrong := fun b hb => hh b (List.mem_cons_of_mem _ hb)
    have hb := hh a List.mem_cons_self
    rw [subArgs]
    cases hk : argKind p.flag a with
    | help => exact absurd hk hb.1
    | wrong => exact absurd hk hb.2
    | positional =>
      dsimp only
      have hp : isFile p.flag a = true := decide_eq_true hk
      by_cases hlt : files.length < p.files
      · rw [if_pos hlt, subArgs_scan name p rest (files ++ [a]) flag extras hh' (by simp; omega), List.filter_cons_of_pos hp]
        have e : (files ++ [a]).length + (rest.filter (isFile p.flag)).length = files.length + (a :: rest.filter (isFile p.flag)).length := by
          simp only [List.length_append, List.length_cons, List.length_nil]; omega
        rw [e]
        simp [hk]
      · rw [if_neg hlt, subArgs_scan name p rest files flag true hh' hl, if_neg (by simp), if_neg]
        rintro ⟨h, -⟩
        rw [List.filter_cons_of_pos hp, List.length_cons] at h
        omega
    | flag =>
      dsimp only
      have hp : ¬ isFile p.flag a = true := by simp [isFile, hk]
      rw [subArgs_scan name p rest files true extras hh' hl, List.filter_cons_of_neg hp]
      simp [hk]
    | unknown =>
      dsimp only
      rw [subArgs_scan name p rest files flag true hh' hl, if_neg (by simp), if_neg]
      rintro ⟨-, -, h⟩
      exact h a List.mem_cons_self hk

/-- Help among the arguments of a command. -/
theorem subArgs_help (name : Str) (p : SubParser) : ∀ (rest files : List Str) (flag extras : Bool),
    (subArgs name p files flag extras rest = .help ↔
      ∃ pre h post, rest = pre ++ h :: post ∧ argKind p.flag h = .help ∧ ∀ a ∈ pre, argKind p.flag a ≠ .wrong)
  | [], files, flag, extras => by
    rw [subArgs]
    repeat' split
    all_goals simp
  | a :: rest, files, flag, extras => by
    have go : argKind p.flag a ≠ .help → argKind p.flag a ≠ .wrong →
        ((∃ pre h post, a :: rest = pre ++ h :: post ∧ argKind p.flag h = .help ∧ ∀ a ∈ pre, argKind p.flag a ≠ .wrong) ↔
          ∃ pre h post, rest = pre ++ h :: post ∧ argKind p.flag h = .help ∧ ∀ a ∈ pre, argKind p.flag a ≠ .wrong) := by
      intro h1 h2
      constructor
      · rintro ⟨pre, h, post, e, h3, h4⟩
        cases pre with
        | nil => cases e; exact absurd h3 h1
        | cons x pre => cases e; exact ⟨pre, h, post, rfl, h3, fun b hb => h4 b (List.mem_cons_of_mem _ hb)⟩
      · rintro ⟨pre, h, post, rfl, h3, h4⟩
        refine ⟨a :: pre, h, post, rfl, h3, ?_⟩
        intro b hb
        rcases List.mem_cons.1 hb with rfl | hb
        · exact h2
        · exact h4 b hb
    rw [subArgs]
    cases hk : argKind p.flag a with
    | positional =>
      dsimp only
      rw [go (by simp [hk]) (by simp [hk])]
      split <;> exact subArgs_help name p rest _ _ _
    | help => exact ⟨fun _ => ⟨[], a, rest, rfl, hk, by simp⟩, fun _ => rfl⟩
    | flag => dsimp only; rw [go (by simp [hk]) (by simp [hk])]; exact subArgs_help name p rest _ _ _
    | unknown => dsimp only; rw [go (by simp [hk]) (by simp [hk])]; exact subArgs_help name p rest _ _ _
    | wrong =>
      refine ⟨fun h => (by cases h), ?_⟩
      rintro ⟨pre, h, post, e, h3, h4⟩
      cases pre with
      | nil => cases e; rw [hk] at h3; cases h3
      | cons x pre => cases e; exact absurd hk (h4 a List.mem_cons_self)

/-- A call that is accepted has neither help nor misused options. -/
theorem subArgs_clean (name : Str) (p : SubParser) {ns : Namespace} : ∀ (rest files : List Str) (flag extras : Bool),
    subArgs name p files flag extras rest = .args ns → ∀ a ∈ rest, argKind p.flag a ≠ .help ∧ argKind p.flag a ≠ .wrong
  | [], _, _, _, _ => by simp
  | a :: rest, files, flag, extras, h => by
    rw [subArgs] at h
    intro b hb
    cases hk : argKind p.flag a with
    | positional =>
      rw [hk] at h
      dsimp only at h
      rcases List.mem_cons.1 hb with rfl | hb
      · simp [hk]
      · split at h <;> exact subArgs_clean name p rest _ _ _ h b hb
    | help => rw [hk] at h; cases h
    | wrong => rw [hk] at h; cases h
    | flag =>
      rw [hk] at h
      rcases List.mem_cons.1 hb with rfl | hb
      · simp [hk]
      · exact subArgs_clean name p rest _ _ _ h b hb
    | unknown =>
      rw [hk] at h
      rcases List.mem_cons.1 hb with rfl | hb
      · simp [hk]
      · exact subArgs_clean name p rest _ _ _ h b hb

/-- Unrecognized arguments before the command make every call an error, unless help is asked for. -/
theorem subArgs_extras (name : Str) (p : SubParser) : ∀ (rest files : List Str) (flag : Bool) (ns : Namespace),
    subArgs name p files flag true rest ≠ .args ns
  | [], files, flag, ns => by
    rw [subArgs]
    repeat' split
    all_goals simp_all
  | a :: rest, files, flag, ns => by
    rw [subArgs]
    cases argKind p.flag a with
    | positional => dsimp only; split <;> exact subArgs_extras name p rest _ _ ns
    | help => simp
    | wrong => simp
    | flag => exact subArgs_extras name p rest _ _ ns
    | unknown => exact subArgs_extras name p rest _ _ ns

theorem mainArgs_extras : ∀ (argv : List Str) (ns : Namespace), mainArgs true argv ≠ .args ns
  | [], ns => by rw [mainArgs]; simp
  | a :: rest, ns => by
    rw [mainArgs]
    cases argKind false a with
    | positional =>
      dsimp only
      cases subParser a with
      | none => simp
      | some p => exact subArgs_extras a p rest [] false ns
    | help => simp
    | wrong => simp
    | flag => exact mainArgs_extras rest ns
    | unknown => exact mainArgs_extras rest ns

/-! ## All arguments -/

theorem help_iff (strict : Bool) {a : Str} (hu : UsualArg a) : argKind strict a = .help ↔ IsHelp a :=
  ⟨(argKind_spec strict hu).1, argKind_help strict⟩

theorem wrong_iff (strict : Bool) {a : Str} (hu : UsualArg a) : argKind strict a = .wrong ↔ Misused strict a :=
  ⟨(argKind_spec strict hu).2.1, argKind_wrong⟩

theorem positional_iff (strict : Bool) {a : Str} (hu : UsualArg a) : argKind strict a = .positional ↔ NoOption strict a :=
  ⟨(argKind_spec strict hu).2.2.2, argKind_positional⟩

theorem command_positional : ∀ n ∈ commandNames, argKind false n = .positional := by decide

theorem mainArgs_help : ∀ (argv : List Str) (extras : Bool), (∀ a ∈ argv, UsualArg a) → (mainArgs extras argv = .help ↔ AsksHelp argv)
  | [], extras, _ => by
    rw [mainArgs]
    constructor
    · intro h; cases h
    · rintro ⟨pre, h, post, he, -⟩
      cases pre <;> cases he
  | a :: rest, extras, hu => by
    have hua := hu a List.mem_cons_self
    have hur : ∀ b ∈ rest, UsualArg b := fun b hb => hu b (List.mem_cons_of_mem _ hb)
    have go : argKind false a ≠ .help → argKind false a ≠ .wrong → argKind false a ≠ .positional →
        (AsksHelp rest ↔ AsksHelp (a :: rest)) := by
      intro k1 k2 k3
      have hn : ¬ NoOption false a ∧ ¬ Misused false a := by
        rw [← positional_iff false hua, ← wrong_iff false hua]; exact ⟨k3, k2⟩
      constructor
      · rintro ⟨pre, h, post, rfl, h1, h2⟩
        refine ⟨a :: pre, h, post, rfl, h1, ?_⟩
        rcases h2 with h2 | ⟨p1, name, p2, rfl, h3, h4⟩
        · left
          intro b hb
          rcases List.mem_cons.1 hb with rfl | hb
          · exact hn
          · exact h2 b hb
        · right
          refine ⟨a :: p1, name, p2, rfl, ?_, h4⟩
          intro b hb
          rcases List.mem_cons.1 hb with rfl | hb
          · exact hn
          · exact h3 b hb
      · rintro ⟨pre, h, post, he, h1, h2⟩
        cases pre with
        | nil =>
          cases he
          exact absurd (argKind_help false h1) k1
        | cons x pre =>
          cases he
          refine ⟨pre, h, post, rfl, h1, ?_⟩
          rcases h2 with h2 | ⟨p1, name, p2, h5, h3, h4⟩
          · exact Or.inl (fun b hb => h2 b (List.mem_cons_of_mem _ hb))
          · cases p1 with
            | nil =>
              cases h5
              exact absurd (command_positional a h4.1) k3
            | cons y p1 =>
              cases h5
              exact Or.inr ⟨p1, name, p2, rfl, fun b hb => h3 b (List.mem_cons_of_mem _ hb), h4⟩
    rw [mainArgs]
    cases hk : argKind false a with
    | help =>
      simp only [true_iff]
      exact ⟨[], a, rest, rfl, (help_iff false hua).1 hk, Or.inl (by simp)⟩
    | wrong =>
      have hm := (wrong_iff false hua).1 hk
      refine ⟨fun h => (by cases h), ?_⟩
      rintro ⟨pre, h, post, he, h1, h2⟩
      cases pre with
      | nil =>
        cases he
        rw [argKind_help false h1] at hk
        cases hk
      | cons x pre =>
        cases he
        rcases h2 with h2 | ⟨p1, name, p2, h5, h3, h4⟩
        · exact absurd hm (h2 a List.mem_cons_self).2
        · cases p1 with
          | nil =>
            cases h5
            rw [command_positional a h4.1] at hk
            cases hk
          | cons y p1 => cases h5; exact absurd hm (h3 a List.mem_cons_self).2
    | flag => dsimp only; rw [← go (by simp [hk]) (by simp [hk]) (by simp [hk])]; exact mainArgs_help rest true hur
    | unknown => dsimp only; rw [← go (by simp [hk]) (by simp [hk]) (by simp [hk])]; exact mainArgs_help rest true hur
    | positional =>
      dsimp only
      have hn := (positional_iff false hua).1 hk
      have key : AsksHelp (a :: rest) ↔ a ∈ commandNames ∧
          ∃ pre h post, rest = pre ++ h :: post ∧ IsHelp h ∧ ∀ b ∈ pre, ¬ Misused (decide (a = c!"validate")) b := by
        constructor
        · rintro ⟨pre, h, post, he, hh, hc⟩
          cases pre with
          | nil =>
            cases he
            rw [argKind_help false hh] at hk
            cases hk
          | cons x pre =>
            cases he
            rcases hc with hc | ⟨pre1, name, pre2, h1, h2, h3, h4⟩
            · exact absurd hn (hc a List.mem_cons_self).1
            · cases pre1 with
              | nil => cases h1; exact ⟨h3, pre, h, post, rfl, hh, h4⟩
              | cons y pre1 => cases h1; exact absurd hn (h2 a List.mem_cons_self).1
        · rintro ⟨hc, pre, h, post, rfl, hh, hm⟩
          exact ⟨a :: pre, h, post, rfl, hh, Or.inr ⟨[], a, pre, rfl, by simp, hc, hm⟩⟩
      rw [key, ← subParser_isSome]
      cases hs : subParser a with
      | none => simp
      | some p =>
        dsimp only
        rw [subArgs_help, subParser_flag hs]
        simp only [Option.isSome_some, true_and]
        constructor
        · rintro ⟨pre, h, post, rfl, h1, h2⟩
          refine ⟨pre, h, post, rfl, (help_iff _ (hur h (by simp))).1 h1, ?_⟩
          intro b hb
          rw [← wrong_iff _ (hur b (by simp [hb]))]
          exact h2 b hb
        · rintro ⟨pre, h, post, rfl, h1, h2⟩
          refine ⟨pre, h, post, rfl, argKind_help _ h1, ?_⟩
          intro b hb
          rw [Ne, wrong_iff _ (hur b (by simp [hb]))]
          exact h2 b hb

/-- The namespace of a call. -/
def namespaceOf : Invocation → Namespace
  | .files k i o => ⟨k.name, some i, some o, none⟩
  | .validate i s => ⟨c!"validate", some i, none, some s⟩
  | .version => ⟨c!"version", none, none, none⟩

theorem subParser_file (k : FileCommand) : subParser k.name = some ⟨2, false⟩ := by cases k <;> rfl

theorem name_positional (k : FileCommand) : argKind false k.name = .positional := by cases k <;> decide

theorem flags_isFile {l : List Str} (h : ∀ a ∈ l, SchemaOption a) : l.filter (isFile true) = [] := by
  rw [List.filter_eq_nil_iff]
  intro a ha
  simp [isFile, argKind_flag (h a ha)]

theorem parse_invokes {argv : List Str} {c : Invocation} (h : Invokes argv c) : parseArgs argv = .args (namespaceOf c) := by
  unfold parseArgs
  cases h with
  | files k hi ho =>
    rename_i i o
    rw [mainArgs, name_positional k, subParser_file]
    dsimp only
    rw [subArgs, argKind_positional hi]
    dsimp only
    rw [if_pos (by decide), subArgs, argKind_positional ho]
    dsimp only
    rw [if_pos (by simp), subArgs]
    rfl
  | validate hi h1 h2 =>
    rename_i pre post i
    have hp : argKind false c!"validate" = .positional := by decide
    have hs : subParser c!"validate" = some ⟨1, true⟩ := by decide
    rw [mainArgs, hp, hs]
    dsimp only
    have hi' := argKind_positional hi
    have hu : ∀ a ∈ pre ++ i :: post, argKind true a = .flag ∨ argKind true a = .positional := by
      intro a ha
      rcases List.mem_append.1 ha with ha | ha
      · exact Or.inl (argKind_flag (h1 a ha))
      · rcases List.mem_cons.1 ha with rfl | ha
        · exact Or.inr hi'
        · exact Or.inl (argKind_flag (h2 a ha))
    rw [subArgs_scan _ _ _ _ _ _ (fun a ha => by rcases hu a ha with e | e <;> simp [e]) (by decide)]
    have hfil : (pre ++ i :: post).filter (isFile true) = [i] := by
      rw [List.filter_append, flags_isFile h1, List.filter_cons_of_pos (by simp [isFile, hi']), flags_isFile h2]
      rfl
    dsimp only
    rw [hfil, if_pos ⟨rfl, rfl, fun a ha => by rcases hu a ha with e | e <;> simp [e]⟩]
    have hm : (∃ a ∈ pre ++ i :: post, argKind true a = .flag) ↔ pre ++ post ≠ [] := by
      constructor
      · rintro ⟨a, ha, hk⟩ e
        rw [List.append_eq_nil_iff] at e
        obtain ⟨rfl, rfl⟩ := e
        have : a = i := by simpa using ha
        rw [this, hi'] at hk
        cases hk
      · intro hne
        cases pre with
        | cons x pre => exact ⟨x, by simp, argKind_flag (h1 x (by simp))⟩
        | nil =>
          cases post with
          | nil => exact absurd rfl hne
          | cons x post => exact ⟨x, by simp, argKind_flag (h2 x (by simp))⟩
    simp only [hm]
    rfl
  | version => decide

/-- Arguments of which one is a file and the others are flags. -/
theorem one_positional : ∀ {l : List Str} {i : Str}, (∀ a ∈ l, argKind true a = .positional ∨ argKind true a = .flag) →
    l.filter (isFile true) = [i] →
    ∃ pre post, l = pre ++ i :: post ∧ (∀ a ∈ pre, argKind true a = .flag) ∧ (∀ a ∈ post, argKind true a = .flag)
  | [], i, _, h => by cases h
  | a :: l, i, hu, h => by
    have hflag : ∀ b ∈ a :: l, isFile true b = false → argKind true b = .flag := by
      intro b hb hp
      rcases hu b hb with e | e
      · simp [isFile, e] at hp
      · exact e
    by_cases hp : isFile true a = true
    · rw [List.filter_cons_of_pos hp] at h
      injection h with h1 h2
      subst h1
      refine ⟨[], l, rfl, by simp, ?_⟩
      intro b hb
      rw [List.filter_eq_nil_iff] at h2
      exact hflag b (List.mem_cons_of_mem _ hb) (by simpa using h2 b hb)
    · rw [List.filter_cons_of_neg hp] at h
      obtain ⟨pre, post, rfl, h1, h2⟩ := one_positional (fun b hb => hu b (List.mem_cons_of_mem _ hb)) h
      refine ⟨a :: pre, post, rfl, ?_, h2⟩
      intro b hb
      rcases List.mem_cons.1 hb with rfl | hb
      · exact hflag _ List.mem_cons_self (by simpa using hp)
      · exact h1 b hb

/-- In an accepted call every argument of the command is a file or the option. -/
theorem subArgs_kinds {name : Str} {p : SubParser} {rest : List Str} {ns : Namespace} (hu : ∀ a ∈ rest, UsualArg a)
    (h : subArgs name p [] false false rest = .args ns) :
    (rest.filter (isFile p.flag)).length = p.files ∧
    (∀ a ∈ rest, argKind p.flag a = .positional ∨ (argKind p.flag a = .flag ∧ p.flag = true ∧ SchemaOption a)) ∧
    ns = ⟨name, (rest.filter (isFile p.flag))[0]?, (rest.filter (isFile p.flag))[1]?,
          if p.flag then some (decide (∃ a ∈ rest, argKind p.flag a = .flag)) else none⟩ := by
  have hh := subArgs_clean _ _ _ _ _ _ h
  rw [subArgs_scan _ _ _ _ _ _ hh (Nat.zero_le _)] at h
  split at h
  · rename_i hc
    obtain ⟨h1, -, h3⟩ := hc
    refine ⟨by simpa using h1, ?_, ?_⟩
    · intro a ha
      cases hk : argKind p.flag a with
      | positional => exact Or.inl rfl
      | help => exact absurd hk (hh a ha).1
      | wrong => exact absurd hk (hh a ha).2
      | unknown => exact absurd hk (h3 a ha)
      | flag => exact Or.inr ⟨rfl, (argKind_spec _ (hu a ha)).2.2.1 hk⟩
    · injection h with h
      rw [← h]
      simp only [List.nil_append, Bool.false_or]
  · cases h

theorem all_files {strict : Bool} {rest : List Str} (hs : strict = false)
    (h : ∀ a ∈ rest, argKind strict a = .positional ∨ (argKind strict a = .flag ∧ strict = true ∧ SchemaOption a)) :
    rest.filter (isFile strict) = rest := by
  rw [List.filter_eq_self]
  intro a ha
  rcases h a ha with e | ⟨-, e, -⟩
  · simp [isFile, e]
  · rw [hs] at e; cases e

theorem invokes_files {k : FileCommand} {rest : List Str} {ns : Namespace} (hu : ∀ a ∈ rest, UsualArg a)
    (h : subArgs k.name ⟨2, false⟩ [] false false rest = .args ns) :
    ∃ i o, Invokes (k.name :: rest) (.files k i o) ∧ ns = namespaceOf (.files k i o) := by
  obtain ⟨h1, h2, h3⟩ := subArgs_kinds hu h
  have hall := all_files rfl h2
  dsimp only at h1 h2 h3 hall
  rw [hall] at h1 h3
  match rest, h1 with
  | [i, o], _ =>
    have hi := List.filter_eq_self.1 hall i (by simp)
    have ho := List.filter_eq_self.1 hall o (by simp)
    exact ⟨i, o, .files k ((positional_iff false (hu i (by simp))).1 (of_decide_eq_true hi))
      ((positional_iff false (hu o (by simp))).1 (of_decide_eq_true ho)), h3⟩

theorem parse_args {argv : List Str} {ns : Namespace} (hu : ∀ a ∈ argv, UsualArg a) (h : parseArgs argv = .args ns) :
    ∃ c, Invokes argv c ∧ ns = namespaceOf c := by
  unfold parseArgs at h
  cases argv with
  | nil => rw [mainArgs] at h; cases h
  | cons a rest =>
    have hu' : ∀ b ∈ rest, UsualArg b := fun b hb => hu b (List.mem_cons_of_mem _ hb)
    rw [mainArgs] at h
    cases hk : argKind false a with
    | help => rw [hk] at h; cases h
    | wrong => rw [hk] at h; cases h
    | flag => rw [hk] at h; exact absurd h (mainArgs_extras rest ns)
    | unknown => rw [hk] at h; exact absurd h (mainArgs_extras rest ns)
    | positional =>
      rw [hk] at h
      dsimp only at h
      cases hs : subParser a with
      | none => rw [hs] at h; cases h
      | some p =>
        rw [hs] at h
        dsimp only at h
        have hc : a ∈ commandNames := by rw [← subParser_isSome, hs]; rfl
        have hfile : ∀ k : FileCommand, a = k.name → ∃ c, Invokes (a :: rest) c ∧ ns = namespaceOf c := by
          rintro k rfl
          rw [subParser_file] at hs
          cases hs
          obtain ⟨i, o, h1, h2⟩ := invokes_files hu' h
          exact ⟨_, h1, h2⟩
        unfold commandNames at hc
        simp only [List.mem_cons, List.not_mem_nil, or_false] at hc
        rcases hc with hc | hc | hc | hc | hc | hc
        · exact hfile .passthrough hc
        · exact hfile .anonymize hc
        · exact hfile .dump hc
        · exact hfile .format hc
        · subst hc
          have : p = ⟨1, true⟩ := by
            have e : subParser c!"validate" = some ⟨1, true⟩ := by decide
            rw [e] at hs; cases hs; rfl
          subst this
          have h0 := h
          obtain ⟨h1, h2, -⟩ := subArgs_kinds hu' h
          dsimp only at h1 h2
          match hf : rest.filter (isFile true), h1 with
          | [i], _ =>
            have hi : isFile true i = true := by
              have : i ∈ rest.filter (isFile true) := by rw [hf]; simp
              exact (List.mem_filter.1 this).2
            obtain ⟨pre, post, rfl, h3, h4⟩ := one_positional (fun a ha => (h2 a ha).imp id (fun h => h.1)) hf
            have inv : Invokes (c!"validate" :: (pre ++ i :: post)) _ :=
              .validate ((positional_iff true (hu' i (by simp))).1 (of_decide_eq_true hi))
                (fun a ha => ((argKind_spec true (hu' a (by simp [ha]))).2.2.1 (h3 a ha)).2)
                (fun a ha => ((argKind_spec true (hu' a (by simp [ha]))).2.2.1 (h4 a ha)).2)
            refine ⟨_, inv, ?_⟩
            have := parse_invokes inv
            unfold parseArgs at this
            rw [mainArgs, hk, hs] at this
            dsimp only at this
            rw [h0] at this
            cases this
            rfl
        · subst hc
          have : p = ⟨0, false⟩ := by
            have e : subParser c!"version" = some ⟨0, false⟩ := by decide
            rw [e] at hs; cases hs; rfl
          subst this
          obtain ⟨h1, h2, h3⟩ := subArgs_kinds hu' h
          have hall := all_files rfl h2
          dsimp only at h1 h3 hall
          rw [hall] at h1
          have : rest = [] := List.length_eq_zero_iff.1 h1
          subst this
          exact ⟨.version, .version, h3⟩

/-! ## The property -/

/-- The command of a call, over files. -/
noncomputable def FileCommand.run (env : Env) : FileCommand → Str → Str → M Files CommandEnd
  | .passthrough => passthroughCommand env.os
  | .anonymize => anonymizeCommand env.os env.hash env.print
  | .dump => fun i o => M.bind (Dump.dumpCommand env.os env.repr i o) (fun _ => M.pure .success)
  | .format => Format.formatCommand env.os env.keep

/-- **C69**, commands over files: the program does what the command does, with the files in the order given. -/
theorem C69_files (env : Env) (argv : List Str) (k : FileCommand) (i o : Str) (h : Invokes argv (.files k i o)) (fs : Files) :
    cliMain env argv fs = ((FileCommand.run env k i o fs).1.map Outcome.ended, (FileCommand.run env k i o fs).2) := by
  unfold cliMain
  rw [parse_invokes h]
  have key : ∀ run : Str → Str → M Files CommandEnd, onFiles (namespaceOf (.files k i o)) run fs =
      ((run i o fs).1.map Outcome.ended, (run i o fs).2) := by
    intro run
    unfold onFiles namespaceOf
    dsimp only
    rcases hr : run i o fs with ⟨_ | _, _⟩ <;> rfl
  cases k with
  | passthrough => exact key (passthroughCommand env.os)
  | anonymize => exact key (anonymizeCommand env.os env.hash env.print)
  | dump => exact key (fun i o => M.bind (Dump.dumpCommand env.os env.repr i o) (fun _ => M.pure .success))
  | format => exact key (Format.formatCommand env.os env.keep)

/-- **C69**, `validate`: the flag asks for the strict check; no file changes. -/
theorem C69_validate (env : Env) (argv : List Str) (i : Str) (s : Bool) (h : Invokes argv (.validate i s)) (fs : Files) :
    cliMain env argv fs =
      ((validateCommand env.messages (fs i).isSome s (env.schema fs i) env.root (readFile fs i) env.cwd).1.map Outcome.validated, fs) := by
  unfold cliMain
  rw [parse_invokes h]
  show dispatch env _ fs = _
  unfold dispatch namespaceOf
  dsimp only
  rw [if_neg (by decide), if_neg (by decide), if_neg (by decide), if_neg (by decide), if_pos rfl]
  cases (validateCommand env.messages (fs i).isSome s (env.schema fs i) env.root (readFile fs i) env.cwd).1 <;> rfl

/-- **C69**, exit code 0 of `validate`: exactly if the file exists and the check comes to its end and finds
nothing.  Otherwise the exit code is 1. -/
theorem C69_validate_exit (env : Env) (argv : List Str) (i : Str) (s : Bool) (h : Invokes argv (.validate i s)) (fs : Files) :
    (exitCode (cliMain env argv fs).1 = 0 ↔ (fs i).isSome = true ∧ ∃ e cwd',
      validate s (env.schema fs i) env.root (readFile fs i) env.cwd = (.ok e, cwd') ∧
      e.xmlErrors = [] ∧ e.schemaErrors = [] ∧ e.semanticWarnings = []) ∧
    (exitCode (cliMain env argv fs).1 ≠ 0 → exitCode (cliMain env argv fs).1 = 1) := by
  rw [C69_validate env argv i s h fs]
  dsimp only
  rcases hv : validateCommand env.messages (fs i).isSome s (env.schema fs i) env.root (readFile fs i) env.cwd with ⟨r, cwd1⟩
  cases hf : (fs i).isSome with
  | false =>
    rw [hf, C27_no_input] at hv
    cases hv
    exact ⟨⟨fun h0 => (by cases h0), fun h0 => (by cases h0.1)⟩, fun _ => rfl⟩
  | true =>
    rw [hf] at hv
    cases r with
    | error x =>
      refine ⟨⟨fun h0 => (by cases h0), ?_⟩, fun _ => rfl⟩
      rintro ⟨-, e, cwd', h1, h2, h3, h4⟩
      unfold validateCommand at hv
      rw [if_neg (by decide), M.bind_ok h1] at hv
      unfold reportOf at hv
      rw [h3, h4] at hv
      cases hv
    | ok v =>
      cases v with
      | noInput =>
        unfold validateCommand at hv
        rw [if_neg (by decide)] at hv
        obtain ⟨e, s1, -, h2⟩ := M.bind_inv hv
        obtain ⟨r', s2, -, h4⟩ := M.bind_inv h2
        cases h4
      | done r =>
        obtain ⟨e, cwd', h1, -, h2, h3⟩ := C27_exit_code _ _ _ _ _ _ _ _ _ hv
        refine ⟨⟨fun h0 => ⟨rfl, e, cwd', h1, h2.1 h0⟩, ?_⟩, h3⟩
        rintro ⟨-, e', cwd'', h4, h5⟩
        rw [h1] at h4
        cases h4
        exact h2.2 h5

/-- **C69**, `version`. -/
theorem C69_version (env : Env) (argv : List Str) (h : Invokes argv .version) (fs : Files) :
    cliMain env argv fs = (.ok (.version c!"0.0.52"), fs) := by
  unfold cliMain
  rw [parse_invokes h]
  rfl

/-- **C69**, help: printed exactly if asked for, and nothing else happens. -/
theorem C69_help (env : Env) (argv : List Str) (fs : Files) (hu : ∀ a ∈ argv, UsualArg a) :
    cliMain env argv fs = (.ok .help, fs) ↔ AsksHelp argv := by
  rw [← mainArgs_help argv false hu]
  unfold cliMain
  cases hp : parseArgs argv with
  | help => unfold parseArgs at hp; simp [hp]
  | usage => unfold parseArgs at hp; simp [hp]
  | args ns =>
    obtain ⟨c, hc, rfl⟩ := parse_args hu hp
    have e : cliMain env argv fs = dispatch env (namespaceOf c) fs := by unfold cliMain; rw [hp]
    have hn : mainArgs false argv ≠ .help := by unfold parseArgs at hp; rw [hp]; simp
    simp only [hn, iff_false]
    rw [← e]
    cases c with
    | files k i o =>
      rw [C69_files env argv k i o hc]
      cases (FileCommand.run env k i o fs).1 <;> simp [Except.map]
    | validate i s =>
      rw [C69_validate env argv i s hc]
      cases (validateCommand env.messages (fs i).isSome s (env.schema fs i) env.root (readFile fs i) env.cwd).1 <;> simp [Except.map]
    | version => rw [C69_version env argv hc]; simp

/-- **C69**, everything else is an error in the call: exit code 2, and nothing happens.  In particular no
call gets past the last command the program knows (`NotImplementedError`). -/
theorem C69_usage (env : Env) (argv : List Str) (fs : Files) (hu : ∀ a ∈ argv, UsualArg a)
    (h1 : ¬ AsksHelp argv) (h2 : ∀ c, ¬ Invokes argv c) : cliMain env argv fs = (.ok .usage, fs) := by
  unfold cliMain
  cases hp : parseArgs argv with
  | help => exact absurd ((mainArgs_help argv false hu).1 hp) h1
  | usage => rfl
  | args ns =>
    obtain ⟨c, hc, -⟩ := parse_args hu hp
    exact absurd hc (h2 c)

/-- A call is not ambiguous. -/
theorem C69_one (argv : List Str) (c d : Invocation) (h1 : Invokes argv c) (h2 : Invokes argv d) : c = d := by
  have e := (parse_invokes h1).symm.trans (parse_invokes h2)
  injection e with e
  cases c with
  | files k i o =>
    cases d with
    | files k' i' o' =>
      injection e with e1 e2 e3
      cases e2; cases e3
      cases k <;> cases k' <;> first | rfl | exact absurd e1 (by decide)
    | validate i' s' => injection e with _ _ _ e4; cases e4
    | version => injection e with _ e2; cases e2
  | validate i s =>
    cases d with
    | files k' i' o' => injection e with _ _ _ e4; cases e4
    | validate i' s' => injection e with _ e2 _ e4; cases e2; cases e4; rfl
    | version => injection e with _ e2; cases e2
  | version =>
    cases d with
    | files k' i' o' => injection e with _ e2; cases e2
    | validate i' s' => injection e with _ e2; cases e2
    | version => rfl

/-- What a successful command leaves in its output file. -/
def Produces (env : Env) (input : Str) (src bytes : ByteArray) : FileCommand → Prop
  | .passthrough => if endsWith input c!".reqifz" = true then passthroughZBytes env.os (.ok src) = .ok bytes else PassthroughOf src bytes
  | .anonymize => ∃ text, anonymize env.hash env.print (.ok src) = .ok text ∧ bytes = text.utf8Encode
  | .dump => ∃ s b page, decodeUtf8 src = .ok s ∧ parseString (normEol s) = .ok b ∧ Dump.dumpText env.repr b = .ok page ∧
      bytes = page.utf8Encode
  | .format => ∃ s out, decodeUtf8 src = .ok s ∧ Format.formatText env.keep s = some out ∧ bytes = out.utf8Encode

theorem run_cases (env : Env) (k : FileCommand) (i o : Str) (fs : Files) :
    (∃ src bytes, fs i = some src ∧ Produces env i src bytes k ∧ FileCommand.run env k i o fs = (.ok .success, update fs o bytes)) ∨
    ((FileCommand.run env k i o fs).1 ≠ .ok .success ∧ (FileCommand.run env k i o fs).2 = fs) := by
  cases k with
  | passthrough => exact C59_passthrough env.os i o fs
  | anonymize =>
    rcases C59_anonymize env.os env.hash env.print i o fs with ⟨src, text, h1, h2, h3⟩ | h
    · exact Or.inl ⟨src, _, h1, ⟨text, h2, rfl⟩, h3⟩
    · exact Or.inr h
  | dump =>
    rcases C64_command env.os env.repr i o fs with ⟨src, s, b, page, h1, h2, h3, h4, h5⟩ | ⟨⟨e, h1⟩, h2⟩
    · refine Or.inl ⟨src, _, h1, ⟨s, b, page, h2, h3, h4, rfl⟩, ?_⟩
      show M.bind (Dump.dumpCommand env.os env.repr i o) (fun _ => M.pure CommandEnd.success) fs = _
      unfold M.bind
      rw [h5]
    · right
      show (M.bind (Dump.dumpCommand env.os env.repr i o) (fun _ => M.pure CommandEnd.success) fs).1 ≠ _ ∧
        (M.bind (Dump.dumpCommand env.os env.repr i o) (fun _ => M.pure CommandEnd.success) fs).2 = fs
      unfold M.bind
      rcases hd : Dump.dumpCommand env.os env.repr i o fs with ⟨r, fs'⟩
      rw [hd] at h1 h2
      dsimp only at h1 h2
      subst h1 h2
      exact ⟨by simp, rfl⟩
  | format =>
    rcases Format.C67_command env.os env.keep i o fs with ⟨src, s, out, h1, h2, h3, -, h5⟩ | ⟨e, h1⟩
    · exact Or.inl ⟨src, _, h1, ⟨s, out, h2, h3, rfl⟩, h5⟩
    · right
      show (Format.formatCommand env.os env.keep i o fs).1 ≠ _ ∧ (Format.formatCommand env.os env.keep i o fs).2 = fs
      rw [h1]
      exact ⟨by simp, rfl⟩

/-- **C69**, exit code 0 of a command over files: exactly the output file has changed, and it holds the
whole result for the input. -/
theorem C69_success (env : Env) (argv : List Str) (k : FileCommand) (i o : Str) (h : Invokes argv (.files k i o)) (fs : Files)
    (h0 : exitCode (cliMain env argv fs).1 = 0) :
    ∃ src bytes, fs i = some src ∧ Produces env i src bytes k ∧ (cliMain env argv fs).2 = update fs o bytes := by
  rw [C69_files env argv k i o h] at h0 ⊢
  rcases run_cases env k i o fs with ⟨src, bytes, h1, h2, h3⟩ | ⟨h1, -⟩
  · exact ⟨src, bytes, h1, h2, by rw [h3]⟩
  · exfalso
    cases hr : (FileCommand.run env k i o fs).1 with
    | error e => rw [hr] at h0; cases h0
    | ok x =>
      rw [hr] at h0 h1
      cases x with
      | exit1 => cases h0
      | success => exact h1 rfl

/-- **C69**, any other exit code: no file has changed, however the program was called. -/
theorem C69_failure (env : Env) (argv : List Str) (hu : ∀ a ∈ argv, UsualArg a) (fs : Files)
    (h0 : exitCode (cliMain env argv fs).1 ≠ 0) : (cliMain env argv fs).2 = fs := by
  by_cases hh : AsksHelp argv
  · rw [(C69_help env argv fs hu).2 hh]
  by_cases hc : ∃ c, Invokes argv c
  · obtain ⟨c, hc⟩ := hc
    cases c with
    | files k i o =>
      rw [C69_files env argv k i o hc] at h0 ⊢
      rcases run_cases env k i o fs with ⟨src, bytes, -, -, h3⟩ | ⟨-, h2⟩
      · rw [h3] at h0; exact absurd rfl h0
      · exact h2
    | validate i s => rw [C69_validate env argv i s hc]
    | version => rw [C69_version env argv hc]
  · rw [C69_usage env argv fs hu hh (fun c h => hc ⟨c, h⟩)]

/-- **C69**, the exit code is 2 exactly for an error in the call, 0 for help and the version, and 0 or 1
otherwise. -/
theorem C69_codes (env : Env) (argv : List Str) (hu : ∀ a ∈ argv, UsualArg a) (fs : Files) :
    (exitCode (cliMain env argv fs).1 = 2 ↔ ¬ AsksHelp argv ∧ ∀ c, ¬ Invokes argv c) ∧
    (AsksHelp argv ∨ Invokes argv .version → exitCode (cliMain env argv fs).1 = 0) ∧ exitCode (cliMain env argv fs).1 ≤ 2 := by
  by_cases hh : AsksHelp argv
  · rw [(C69_help env argv fs hu).2 hh]
    exact ⟨⟨fun h => (by cases h), fun h => absurd hh h.1⟩, fun _ => rfl, by dsimp only [exitCode]; decide⟩
  by_cases hc : ∃ c, Invokes argv c
  · have key : exitCode (cliMain env argv fs).1 ≤ 1 ∧ (Invokes argv .version → exitCode (cliMain env argv fs).1 = 0) := by
      obtain ⟨c, hc⟩ := hc
      cases c with
      | files k i o =>
        refine ⟨?_, fun h => by cases C69_one argv _ _ hc h⟩
        rw [C69_files env argv k i o hc]
        cases (FileCommand.run env k i o fs).1 with
        | error e => exact Nat.le_refl 1
        | ok x => cases x <;> simp [Except.map, exitCode]
      | validate i s =>
        refine ⟨?_, fun h => by cases C69_one argv _ _ hc h⟩
        by_cases h0 : exitCode (cliMain env argv fs).1 = 0
        · rw [h0]; decide
        · rw [(C69_validate_exit env argv i s hc fs).2 h0]; decide
      | version => rw [C69_version env argv hc]; exact ⟨by simp [exitCode], fun _ => rfl⟩
    refine ⟨⟨fun h => ?_, fun h => absurd hc (fun ⟨c, hc⟩ => h.2 c hc)⟩, fun h => ?_, by omega⟩
    · omega
    · rcases h with h | h
      · exact absurd h hh
      · exact key.2 h
  · have hc' : ∀ c, ¬ Invokes argv c := fun c h => hc ⟨c, h⟩
    rw [C69_usage env argv fs hu hh hc']
    refine ⟨⟨fun _ => ⟨hh, hc'⟩, fun _ => rfl⟩, fun h => ?_, by simp [exitCode]⟩
    rcases h with h | h
    · exact absurd h hh
    · exact absurd h (hc' _)

/-- **C69**, the only file that can change is the output file of a command over files. -/
theorem C69_only (env : Env) (argv : List Str) (hu : ∀ a ∈ argv, UsualArg a) (fs : Files) (path : Str)
    (h : (cliMain env argv fs).2 path ≠ fs path) : ∃ k i, Invokes argv (.files k i path) := by
  by_cases hh : AsksHelp argv
  · rw [(C69_help env argv fs hu).2 hh] at h; exact absurd rfl h
  by_cases hc : ∃ c, Invokes argv c
  · obtain ⟨c, hc⟩ := hc
    cases c with
    | files k i o =>
      rw [C69_files env argv k i o hc] at h
      rcases run_cases env k i o fs with ⟨src, bytes, -, -, h3⟩ | ⟨-, h2⟩
      · rw [h3] at h
        have : path = o := by
          apply Classical.byContradiction
          intro hne
          apply h
          show update fs o bytes path = fs path
          unfold update
          rw [if_neg hne]
        subst this
        exact ⟨k, i, hc⟩
      · exact absurd (congrFun h2 path) h
    | validate i s => rw [C69_validate env argv i s hc] at h; exact absurd rfl h
    | version => rw [C69_version env argv hc] at h; exact absurd rfl h
  · rw [C69_usage env argv fs hu hh (fun c h => hc ⟨c, h⟩)] at h
    exact absurd rfl h

theorem dispatch_file (env : Env) (k : FileCommand) {ns : Namespace} (h : ns.command = k.name) (fs : Files) :
    dispatch env ns fs = onFiles ns (FileCommand.run env k) fs := by
  unfold dispatch
  rw [h]
  cases k with
  | passthrough => rw [if_pos (show FileCommand.passthrough.name = c!"passthrough" from rfl)]; rfl
  | anonymize => rw [if_neg (by decide), if_pos (show FileCommand.anonymize.name = c!"anonymize" from rfl)]; rfl
  | dump => rw [if_neg (by decide), if_neg (by decide), if_pos (show FileCommand.dump.name = c!"dump" from rfl)]; rfl
  | format =>
    rw [if_neg (by decide), if_neg (by decide), if_neg (by decide), if_pos (show FileCommand.format.name = c!"format" from rfl)]; rfl

theorem dispatch_other (env : Env) {ns : Namespace} (h : ∀ k : FileCommand, ns.command ≠ k.name) (fs : Files) :
    (dispatch env ns fs).2 = fs := by
  unfold dispatch
  rw [if_neg (show ns.command ≠ c!"passthrough" from h .passthrough), if_neg (show ns.command ≠ c!"anonymize" from h .anonymize),
    if_neg (show ns.command ≠ c!"dump" from h .dump), if_neg (show ns.command ≠ c!"format" from h .format)]
  by_cases h1 : ns.command = c!"validate"
  · rw [if_pos h1]
    cases ns.inputFile with
    | none => rfl
    | some i =>
      cases ns.useSchema with
      | none => rfl
      | some s =>
        dsimp only
        cases (validateCommand env.messages (fs i).isSome s (env.schema fs i) env.root (readFile fs i) env.cwd).1 <;> rfl
  · rw [if_neg h1]
    split <;> rfl

/-- **C69**, whatever the parser of arguments makes of the call: a file changes only if the command is one of
the four over files, the file is the output file, the exit code is 0, and the file then holds the whole result
for the input file. -/
theorem C69_any (env : Env) (ns : Namespace) (fs : Files) (path : Str) (h : (dispatch env ns fs).2 path ≠ fs path) :
    ns.outputFile = some path ∧ exitCode (dispatch env ns fs).1 = 0 ∧
    ∃ k i src bytes, ns.command = FileCommand.name k ∧ ns.inputFile = some i ∧ fs i = some src ∧ Produces env i src bytes k ∧
      (dispatch env ns fs).2 = update fs path bytes := by
  by_cases hk : ∃ k : FileCommand, ns.command = k.name
  · obtain ⟨k, hk⟩ := hk
    rw [dispatch_file env k hk] at h ⊢
    unfold onFiles at h ⊢
    cases hi : ns.inputFile with
    | none => rw [hi] at h; exact absurd rfl h
    | some i =>
      cases ho : ns.outputFile with
      | none => rw [hi, ho] at h; exact absurd rfl h
      | some o =>
        rw [hi, ho] at h
        dsimp only at h ⊢
        rcases run_cases env k i o fs with ⟨src, bytes, h1, h2, h3⟩ | ⟨-, h2⟩
        · rw [h3] at h ⊢
          have : path = o := by
            apply Classical.byContradiction
            intro hne
            apply h
            show update fs o bytes path = fs path
            unfold update
            rw [if_neg hne]
          subst this
          exact ⟨rfl, rfl, k, i, src, bytes, hk, rfl, h1, h2, rfl⟩
        · exfalso
          apply h
          rcases hr : FileCommand.run env k i o fs with ⟨r, fs'⟩
          rw [hr] at h2
          dsimp only at h2
          subst h2
          cases r <;> rfl
  · exact absurd (congrFun (dispatch_other env (fun k e => hk ⟨k, e⟩) fs) path) h

/-! ## Concrete calls -/

example : Invokes [c!"validate", c!"--use-reqif-schema", c!"a.reqif"] (.validate c!"a.reqif" true) :=
  .validate (pre := [c!"--use-reqif-schema"]) (post := []) (Or.inl (by intro r h; cases h))
    (by simp only [List.mem_singleton, forall_eq]; unfold SchemaOption; decide) (by simp)

/-- An abbreviated option, given twice, and a file whose name begins with `-`. -/
example : Invokes [c!"validate", c!"--use", c!"-a b", c!"--u"] (.validate c!"-a b" true) :=
  .validate (pre := [c!"--use"]) (post := [c!"--u"])
    (Or.inr (Or.inr ⟨by decide, ⟨by decide, by decide, (by intro r h; cases h), (by intro c r h; cases h; decide)⟩,
      fun h => by obtain ⟨c, t, e, -⟩ := misused_long h; cases e⟩))
    (by simp only [List.mem_singleton, forall_eq]; unfold SchemaOption; decide)
    (by simp only [List.mem_singleton, forall_eq]; unfold SchemaOption; decide)

example : Invokes [c!"format", c!"a.reqif", c!"-"] (.files .format c!"a.reqif" c!"-") :=
  .files .format (Or.inl (by intro r h; cases h)) (Or.inr (Or.inl rfl))

example : parseArgs [c!"format", c!"a.reqif"] = .usage ∧ parseArgs [c!"--use-reqif-schema", c!"validate", c!"a"] = .usage ∧
    parseArgs [c!"dump", c!"a", c!"b", c!"c", c!"-h"] = .help ∧ parseArgs [c!"convert-to-csv", c!"a", c!"-h"] = .usage ∧
    parseArgs [c!"validate", c!"a"] = .args ⟨c!"validate", some c!"a", none, some false⟩ ∧
    parseArgs [c!"dump", c!"a", c!"b", c!"--use"] = .usage ∧ parseArgs [c!"dump", c!"--he"] = .help ∧
    parseArgs [c!"dump", c!"--he=", c!"-h"] = .usage ∧ parseArgs [c!"dump", c!"--use=1", c!"-hh"] = .help ∧
    parseArgs [c!"validate", c!"--use=1", c!"-hh"] = .usage ∧ parseArgs [c!"--hex", c!"version"] = .usage := by decide

/-- A call with the option in the wrong place meets the hypotheses of `C69_usage`. -/
example : (∀ a ∈ [c!"--use-reqif-schema", c!"validate", c!"a"], UsualArg a) ∧
    ¬ AsksHelp [c!"--use-reqif-schema", c!"validate", c!"a"] ∧ ∀ c, ¬ Invokes [c!"--use-reqif-schema", c!"validate", c!"a"] c := by
  have hu : ∀ a ∈ [c!"--use-reqif-schema", c!"validate", c!"a"], UsualArg a := by
    intro a ha
    simp only [List.mem_cons, List.not_mem_nil, or_false] at ha
    rcases ha with rfl | rfl | rfl <;>
      exact ⟨by decide, by decide, (by intro r h; cases h), (by intro c r h; cases h <;> decide)⟩
  refine ⟨hu, ?_, ?_⟩
  · rw [← mainArgs_help _ false hu]; decide
  · intro c h
    exact absurd (parse_invokes h) (by
      have e : parseArgs [c!"--use-reqif-schema", c!"validate", c!"a"] = .usage := by decide
      rw [e]; simp)

end ReqIF.Cli

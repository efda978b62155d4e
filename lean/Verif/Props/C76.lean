import Verif.Spec.Repack
import Verif.Props.C30
import Verif.Props.C56_57
import Verif.Props.C75
/-!
# C76: passthrough of archives
-/
namespace ReqIF
open Spec

/-! ## Reading -/

theorem foldPy_member_keys (ar : Archive) : ∀ (names : List Str) (acc z : ZBundle), foldPy (memberStep ar) acc names = .ok z →
    z.reqifBundles.map (·.1) = acc.reqifBundles.map (·.1) ++
      (firsts (names.filter isReqifName)).filter (fun k => decide (k ∉ acc.reqifBundles.map (·.1))) ∧
    z.attachments.map (·.1) = acc.attachments.map (·.1) ++
      (firsts (names.filter (fun n => !isReqifName n))).filter (fun k => decide (k ∉ acc.attachments.map (·.1)))
  | [], acc, z, h => by
    cases h
    simp [firsts]
  | n :: names, acc, z, h => by
    unfold foldPy at h
    have key : ∀ (old new l : List Str), (n ∈ old → new = old) → (n ∉ old → new = old ++ [n]) →
        new ++ (firsts l).filter (fun k => decide (k ∉ new)) = old ++ (firsts (n :: l)).filter (fun k => decide (k ∉ old)) := by
      intro old new l h1 h2
      rw [firsts, List.filter_cons]
      by_cases h : n ∈ old
      · rw [h1 h, if_neg (by simpa using h), List.filter_filter]
        congr 1
        apply List.filter_congr
        intro k _
        rw [Bool.eq_iff_iff]
        simp only [decide_eq_true_eq, Bool.and_eq_true]
        exact ⟨fun hk => ⟨hk, fun he => hk (he ▸ h)⟩, fun hk => hk.1⟩
      · rw [h2 h, if_pos (by simpa using h), List.append_assoc, List.filter_filter, List.singleton_append]
        congr 2
        apply List.filter_congr
        intro k _
        rw [Bool.eq_iff_iff]
        simp only [decide_eq_true_eq, Bool.and_eq_true, List.mem_append, List.mem_singleton, not_or]
    cases hs : memberStep ar acc n with
    | error e => rw [hs] at h; cases h
    | ok acc' =>
      rw [hs] at h
      obtain ⟨g1, g2⟩ := foldPy_member_keys ar names acc' z h
      unfold memberStep at hs
      split at hs
      · cases hs
      · split at hs
        · rename_i hq
          split at hs
          · cases hs
          · split at hs
            · cases hs
            · cases hs
              rw [List.filter_cons_of_pos hq, List.filter_cons_of_neg (by simp [hq])]
              exact ⟨g1.trans (key _ _ _ (fun h => by rw [Dict.keys_set, if_pos h]) (fun h => by rw [Dict.keys_set, if_neg h])), g2⟩
        · rename_i hq
          cases hs
          rw [List.filter_cons_of_neg hq, List.filter_cons_of_pos (by simpa using hq)]
          exact ⟨g1, g2.trans (key _ _ _ (fun h => by rw [Dict.keys_set, if_pos h]) (fun h => by rw [Dict.keys_set, if_neg h]))⟩

/-- The names of an archive that has been read, in order. -/
theorem parseZ_keys {ar : Archive} {z : ZBundle} (h : (parseZ (none : Option (Callback Unit)) (.ok ar) ()).1 = .ok z) :
    z.reqifBundles.map (·.1) = firsts ((ar.map (·.1)).filter isReqifName) ∧
    z.attachments.map (·.1) = firsts ((ar.map (·.1)).filter (fun n => !isReqifName n)) := by
  unfold parseZ wrapZ at h
  simp only [M.bind, M.lift, membersLoop_none] at h
  cases hf : foldPy (memberStep ar) ⟨[], []⟩ (ar.map (·.1)) with
  | error e => rw [hf] at h; cases h
  | ok z' =>
    rw [hf] at h
    cases h
    obtain ⟨h1, h2⟩ := foldPy_member_keys ar _ _ _ hf
    constructor
    · rw [h1]; simp
    · rw [h2]; simp

/-! ## Writing -/

theorem writeLoop_none {α : Type} {total : Nat} {f : α → Py ByteArray} : ∀ (xs : Dict Str α) (k : Nat) (out : List (Str × ByteArray)) (r : List (Str × ByteArray) × Nat),
    (writeLoop (none : Option (Callback Unit)) total f k out xs ()).1 = .ok r ↔
      ∃ ms, xs.map (fun x => (x.1, f x.2)) = ms.map (fun m => (m.1, .ok m.2)) ∧ r = (out ++ ms, k + xs.length)
  | [], k, out, r => by
    constructor
    · intro h
      cases h
      exact ⟨[], rfl, by simp⟩
    · rintro ⟨ms, h1, h2⟩
      cases ms with
      | nil => rw [h2]; simp [writeLoop, M.pure]
      | cons m ms => cases h1
  | (n, x) :: xs, k, out, r => by
    rw [writeLoop]
    cases hf : f x with
    | error e =>
      constructor
      · intro h; cases h
      · rintro ⟨ms, h1, -⟩
        cases ms with
        | nil => cases h1
        | cons m ms =>
          rw [List.map_cons, List.map_cons, hf] at h1
          injection h1 with h1 _
          cases h1
    | ok bytes =>
      have e : (M.bind (M.lift (.ok bytes)) fun bytes => M.bind (notify (none : Option (Callback Unit)) n (k + 1) total) fun _ =>
          writeLoop (none : Option (Callback Unit)) total f (k + 1) (out ++ [(n, bytes)]) xs) () =
          writeLoop (none : Option (Callback Unit)) total f (k + 1) (out ++ [(n, bytes)]) xs () := rfl
      rw [e, writeLoop_none xs]
      constructor
      · rintro ⟨ms, h1, h2⟩
        refine ⟨(n, bytes) :: ms, by rw [List.map_cons, List.map_cons, h1, hf], ?_⟩
        rw [h2, List.length_cons, List.append_assoc, Nat.add_assoc, Nat.add_comm 1]
        rfl
      · rintro ⟨ms, h1, h2⟩
        cases ms with
        | nil => cases h1
        | cons m ms =>
          rw [List.map_cons, List.map_cons, hf] at h1
          injection h1 with h1 h3
          injection h1 with h4 h5
          injection h5 with h5
          obtain ⟨n', b'⟩ := m
          dsimp only at h4 h5
          subst h4 h5
          refine ⟨ms, h3, ?_⟩
          rw [h2, List.length_cons, List.append_assoc, Nat.add_assoc k 1, Nat.add_comm 1]
          rfl

theorem unparseZ_none {z : ZBundle} {ms : List (Str × ByteArray)} :
    (unparseZ (none : Option (Callback Unit)) z ()).1 = .ok ms ↔
      z.reqifBundles.map (fun x => (x.1, bundleBytes x.2)) ++ z.attachments.map (fun x => (x.1, Except.ok x.2)) =
        ms.map (fun m => (m.1, .ok m.2)) := by
  have e : ∀ {α β : Type} (m : M Unit α) (g : α → M Unit β) (r : Py β), (M.bind m g ()).1 = r ↔
      (∃ a, (m ()).1 = .ok a ∧ (g a ()).1 = r) ∨ (∃ e, (m ()).1 = .error e ∧ r = .error e) := by
    intro α β m g r
    unfold M.bind
    cases hm : m () with
    | mk a s =>
      cases a with
      | ok a => simp
      | error e => simp [eq_comm]
  unfold unparseZ
  simp only [e, writeLoop_none]
  constructor
  · rintro (⟨a, ⟨m1, h1, rfl⟩, ⟨a', ⟨m2, h2, rfl⟩, h3⟩ | ⟨x, -, h3⟩⟩ | ⟨x, -, h3⟩)
    · cases h3
      rw [h1, h2, List.nil_append, List.map_append]
    · cases h3
    · cases h3
  · intro h
    obtain ⟨m1, m2, h1, h2, h3⟩ := List.append_eq_map_iff.1 h
    refine Or.inl ⟨_, ⟨m1, h2.symm, rfl⟩, Or.inl ⟨_, ⟨m2, h3.symm, rfl⟩, ?_⟩⟩
    rw [h1]
    rfl

/-! ## Both -/

/-- What becomes of a member. -/
noncomputable def memberOut (ar : Archive) (n : Str) : Py ByteArray :=
  match memberContent ar n with
  | some (.ok bytes) =>
    if isReqifName n then
      match decodeUtf8 bytes with
      | .error e => .error e
      | .ok text =>
        match parseString text with
        | .error e => .error e
        | .ok b => bundleBytes b
    else .ok bytes
  | _ => .error .keyError

theorem memberOut_ok {ar : Archive} {n : Str} {bytes' : ByteArray} : memberOut ar n = .ok bytes' ↔
    ∃ bytes, memberContent ar n = some (.ok bytes) ∧ (ReqifMember n → PrintedAgain bytes bytes') ∧ (¬ ReqifMember n → bytes' = bytes) := by
  unfold memberOut
  cases hm : memberContent ar n with
  | none => simp
  | some r =>
    cases r with
    | error e => simp
    | ok bytes =>
      dsimp only
      by_cases hq : ReqifMember n
      · rw [if_pos ((C31_names n).2 hq)]
        constructor
        · intro h
          refine ⟨bytes, rfl, fun _ => ?_, fun h => absurd hq h⟩
          cases hd : decodeUtf8 bytes with
          | error e => rw [hd] at h; cases h
          | ok text =>
            rw [hd] at h
            dsimp only at h
            cases hp : parseString text with
            | error e => rw [hp] at h; cases h
            | ok b =>
              rw [hp] at h
              dsimp only at h
              unfold bundleBytes at h
              cases hu : unparse b with
              | error e => rw [hu] at h; cases h
              | ok out =>
                rw [hu] at h
                cases h
                exact ⟨text, b, out, hd, hp, hu, rfl⟩
        · rintro ⟨bytes0, h0, h, -⟩
          cases h0
          obtain ⟨text, b, out, h1, h2, h3, rfl⟩ := h hq
          unfold bundleBytes
          rw [h1]
          dsimp only
          rw [h2]
          dsimp only
          rw [h3]
      · rw [if_neg (fun h => hq ((C31_names n).1 h))]
        constructor
        · intro h
          cases h
          exact ⟨bytes', rfl, fun h => absurd h hq, fun _ => rfl⟩
        · rintro ⟨bytes0, h0, -, h⟩
          cases h0
          rw [h hq]

theorem dict_get_mem {κ ν : Type} [DecidableEq κ] {d : Dict κ ν} (h : (d.map (·.1)).Nodup) {x : κ × ν} (hx : x ∈ d) : d.get? x.1 = some x.2 := by
  induction d with
  | nil => cases hx
  | cons y d ih =>
    obtain ⟨k, v⟩ := y
    rw [List.map_cons, List.nodup_cons] at h
    unfold Dict.get?
    rcases List.mem_cons.1 hx with rfl | hx'
    · rw [if_pos rfl]
    · rw [if_neg (fun (e : k = x.1) => h.1 (by rw [e]; exact List.mem_map.2 ⟨x, hx', rfl⟩))]
      exact ih h.2 hx'

theorem parsed_out {ar : Archive} {z : ZBundle} (h : (parseZ (none : Option (Callback Unit)) (.ok ar) ()).1 = .ok z) :
    z.reqifBundles.map (fun x => (x.1, bundleBytes x.2)) ++ z.attachments.map (fun x => (x.1, Except.ok x.2)) =
      (repackedNames ar).map (fun n => (n, memberOut ar n)) := by
  obtain ⟨k1, k2⟩ := parseZ_keys h
  unfold repackedNames
  rw [List.map_append, ← k1, ← k2, List.map_map, List.map_map]
  have hmem : ∀ n, (z.reqifBundles.get? n).isSome ∨ (z.attachments.get? n).isSome → n ∈ ar.map (·.1) := by
    intro n hn
    by_cases hc : n ∈ ar.map (·.1)
    · exact hc
    · obtain ⟨e1, e2⟩ := (C31_members ar () z h n).2 hc
      rw [e1, e2] at hn
      rcases hn with hn | hn <;> cases hn
  congr 1
  · apply List.map_congr_left
    intro x hx
    have hg := dict_get_mem (k1 ▸ firsts_nodup _) hx
    obtain ⟨bytes, h1, h2, h3⟩ := (C31_members ar () z h x.1).1 (hmem x.1 (.inl (by rw [hg]; rfl)))
    have hq : ReqifMember x.1 := by
      by_cases hq : ReqifMember x.1
      · exact hq
      · rw [(h3 hq).2] at hg; cases hg
    obtain ⟨b, ⟨text, ht, hb⟩, h4, -⟩ := h2 hq
    rw [h4] at hg
    show (x.1, bundleBytes x.2) = (x.1, memberOut ar x.1)
    unfold memberOut
    rw [h1]
    dsimp only
    rw [if_pos ((C31_names x.1).2 hq), ht]
    dsimp only
    rw [hb]
    dsimp only
    rw [Option.some.inj hg]
  · apply List.map_congr_left
    intro x hx
    have hg := dict_get_mem (k2 ▸ firsts_nodup _) hx
    obtain ⟨bytes, h1, h2, h3⟩ := (C31_members ar () z h x.1).1 (hmem x.1 (.inr (by rw [hg]; rfl)))
    have hq : ¬ ReqifMember x.1 := by
      intro hq
      obtain ⟨b, -, -, h4⟩ := h2 hq
      rw [h4] at hg; cases hg
    rw [(h3 hq).1] at hg
    show (x.1, Except.ok x.2) = (x.1, memberOut ar x.1)
    unfold memberOut
    rw [h1]
    dsimp only
    rw [if_neg (fun h => hq ((C31_names x.1).1 h)), Option.some.inj hg]

theorem repackedNames_mem {ar : Archive} {n : Str} : n ∈ repackedNames ar ↔ n ∈ ar.map (·.1) := by
  unfold repackedNames
  rw [List.mem_append, firsts_mem, firsts_mem, List.mem_filter, List.mem_filter]
  cases isReqifName n <;> simp

theorem repacked_iff {ar : Archive} {members : List (Str × ByteArray)} :
    (repackedNames ar).map (fun n => (n, memberOut ar n)) = members.map (fun m => (m.1, .ok m.2)) ↔ Repacked ar members := by
  constructor
  · intro h
    have hn : members.map (·.1) = repackedNames ar := by
      have := congrArg (List.map Prod.fst) h
      rw [List.map_map, List.map_map] at this
      simpa [Function.comp_def] using this.symm
    refine ⟨hn, fun m hm => memberOut_ok.1 ?_⟩
    have : (m.1, Except.ok m.2) ∈ (repackedNames ar).map (fun n => (n, memberOut ar n)) := by
      rw [h]
      exact List.mem_map.2 ⟨m, hm, rfl⟩
    obtain ⟨n, -, e⟩ := List.mem_map.1 this
    injection e with e1 e2
    rw [← e1, e2]
  · rintro ⟨h1, h2⟩
    rw [← h1, List.map_map]
    apply List.map_congr_left
    intro m hm
    show (m.1, memberOut ar m.1) = _
    rw [memberOut_ok.2 (h2 m hm)]

/-- **C76.** Passthrough of an archive succeeds exactly if the archive can be opened, all members
can be read and all ReqIF documents among them can be read and printed.  The new archive has the same
names, each once, ReqIF documents first; each ReqIF document is the printed one, and all other
members have the same bytes as before. -/
theorem C76_archive {os : OsEnv} {src out : ByteArray} : passthroughZBytes os (.ok src) = .ok out ↔
    ∃ ar members, os.zipRead src = .ok ar ∧ Repacked ar members ∧ out = os.zipWrite members := by
  unfold passthroughZBytes
  have e : (Except.ok src : Py ByteArray).bind os.zipRead = os.zipRead src := rfl
  rw [e]
  cases hz : os.zipRead src with
  | error x =>
    constructor
    · intro h
      cases h
    · rintro ⟨ar, members, h, -⟩
      cases h
  | ok ar =>
    cases hp : (parseZ (none : Option (Callback Unit)) (.ok ar) ()).1 with
    | error x =>
      constructor
      · intro h; cases h
      · rintro ⟨ar', members, h, ⟨h1, h2⟩, -⟩
        cases h
        have hx : x = .reqifz := by
          rcases C25_only_reqifz (none : Option (Callback Unit)) (.ok ar) () with ⟨z, h⟩ | h
          · rw [hp] at h; cases h
          · rw [hp] at h; cases h; rfl
        subst hx
        rcases (C25_fails_iff (none : Option (Callback Unit)) (fun p h => by cases h) (.ok ar) ()).1 hp with ⟨e, h⟩ | ⟨ar', h, m, hm, hl⟩
        · cases h
        · cases h
          have hin : m.1 ∈ members.map (·.1) := by
            rw [h1, repackedNames_mem]
            exact List.mem_map.2 ⟨m, hm, rfl⟩
          obtain ⟨m', hm', e'⟩ := List.mem_map.1 hin
          obtain ⟨bytes, g1, g2, -⟩ := h2 m' hm'
          rw [e'] at g1 g2
          refine absurd ⟨bytes, g1, fun hq => ?_⟩ hl
          obtain ⟨text, b, out, i1, i2, -⟩ := g2 hq
          exact ⟨b, text, i1, i2⟩
    | ok z =>
      dsimp only
      have hu := @unparseZ_none z
      rw [parsed_out hp] at hu
      cases hq : (unparseZ (none : Option (Callback Unit)) z ()).1 with
      | error x =>
        constructor
        · intro h; cases h
        · rintro ⟨ar', members, h, hr, -⟩
          cases h
          rw [hu.2 (repacked_iff.2 hr)] at hq
          cases hq
      | ok ms =>
        dsimp only
        constructor
        · intro h
          cases h
          exact ⟨ar, ms, rfl, repacked_iff.1 (hu.1 hq), rfl⟩
        · rintro ⟨ar', members, h, hr, rfl⟩
          cases h
          rw [hu.2 (repacked_iff.2 hr)] at hq
          cases hq
          rfl

/-! ## Plain documents -/

theorem memberContent_of {members : List (Str × ByteArray)} (hn : (members.map (·.1)).Nodup) {m : Str × ByteArray} (hm : m ∈ members) :
    memberContent (archiveOf members) m.1 = some (.ok m.2) := by
  have hn' : ((archiveOf members).map (·.1)).Nodup := by
    unfold archiveOf
    rw [List.map_map]
    exact hn
  have h := readMember_mem (ar := archiveOf members) hn' (m := (m.1, .ok m.2)) (List.mem_map.2 ⟨m, hm, rfl⟩)
  rw [readMember_eq] at h
  dsimp only at h
  cases hc : memberContent (archiveOf members) m.1 with
  | none => rw [hc] at h; cases h
  | some r => rw [hc] at h; dsimp only at h; rw [h]

theorem firsts_of_nodup {α : Type} [DecidableEq α] : ∀ {l : List α}, l.Nodup → firsts l = l
  | [], _ => rfl
  | a :: l, h => by
    rw [List.nodup_cons] at h
    rw [firsts, firsts_of_nodup h.2]
    congr 1
    rw [List.filter_eq_self]
    intro b hb
    simp only [decide_eq_true_eq]
    rintro rfl
    exact h.1 hb

theorem repackedNames_nodup (ar : Archive) : (repackedNames ar).Nodup := by
  unfold repackedNames
  rw [List.nodup_append]
  refine ⟨firsts_nodup _, firsts_nodup _, ?_⟩
  rintro a h1 b h2 rfl
  rw [firsts_mem, List.mem_filter] at h1 h2
  rw [h1.2] at h2
  cases h2.2

/-- The names are in that order already. -/
theorem repackedNames_again {ar : Archive} {members : List (Str × ByteArray)} (h : members.map (·.1) = repackedNames ar) :
    repackedNames (archiveOf members) = members.map (·.1) := by
  have e : (archiveOf members).map (·.1) = members.map (·.1) := by
    unfold archiveOf
    rw [List.map_map]
    rfl
  have f1 : ∀ l : List Str, (firsts (l.filter isReqifName)).filter isReqifName = firsts (l.filter isReqifName) := by
    intro l
    rw [List.filter_eq_self]
    intro a ha
    rw [firsts_mem, List.mem_filter] at ha
    exact ha.2
  have f2 : ∀ l : List Str, (firsts (l.filter (fun n => !isReqifName n))).filter (fun n => !isReqifName n) = firsts (l.filter (fun n => !isReqifName n)) := by
    intro l
    rw [List.filter_eq_self]
    intro a ha
    rw [firsts_mem, List.mem_filter] at ha
    exact ha.2
  have f3 : ∀ l : List Str, (firsts (l.filter (fun n => !isReqifName n))).filter isReqifName = [] := by
    intro l
    rw [List.filter_eq_nil_iff]
    intro a ha hc
    rw [firsts_mem, List.mem_filter, hc] at ha
    cases ha.2
  have f4 : ∀ l : List Str, (firsts (l.filter isReqifName)).filter (fun n => !isReqifName n) = [] := by
    intro l
    rw [List.filter_eq_nil_iff]
    intro a ha hc
    rw [firsts_mem, List.mem_filter] at ha
    rw [ha.2] at hc
    cases hc
  unfold repackedNames at h ⊢
  rw [e, h, List.filter_append, List.filter_append, f1, f2, f3, f4, List.append_nil, List.nil_append,
    firsts_of_nodup (firsts_nodup _), firsts_of_nodup (firsts_nodup _)]

/-- The bytes of a plain document (C63). -/
def PlainMember (bytes : ByteArray) (doc : Doc) : Prop :=
  ∃ text p, decodeUtf8 bytes = .ok text ∧ readDoc text = some doc ∧ Xsd.validRoot .lenient doc.root = true ∧ noSpecials doc.root = true ∧
    Xsd.plainDocument p doc.root = true ∧ Xsd.childNames doc.root.kids ≠ []

/-- All members can be read, and the ReqIF documents among them are plain. -/
def PlainArchive (ar : Archive) : Prop :=
  ∀ n ∈ ar.map (·.1), ∃ bytes, memberContent ar n = some (.ok bytes) ∧ (ReqifMember n → ∃ doc, PlainMember bytes doc)

theorem plain_repacked {ar : Archive} (h : PlainArchive ar) : ∃ members, Repacked ar members := by
  have key : ∀ names : List Str, (∀ n ∈ names, ∃ b, memberOut ar n = .ok b) →
      ∃ members : List (Str × ByteArray), names.map (fun n => (n, memberOut ar n)) = members.map (fun m => (m.1, Except.ok m.2)) := by
    intro names
    induction names with
    | nil => intro _; exact ⟨[], rfl⟩
    | cons n names ih =>
      intro hh
      obtain ⟨b, hb⟩ := hh n (by simp)
      obtain ⟨ms, hms⟩ := ih (fun m hm => hh m (by simp [hm]))
      exact ⟨(n, b) :: ms, by rw [List.map_cons, List.map_cons, hms, hb]⟩
  obtain ⟨members, hm⟩ := key (repackedNames ar) (by
    intro n hn
    obtain ⟨bytes, h1, h2⟩ := h n (repackedNames_mem.1 hn)
    by_cases hq : ReqifMember n
    · obtain ⟨doc, text, p, g1, g2, g3, g4, g5, g6⟩ := h2 hq
      obtain ⟨b, out, b', i1, i2, -⟩ := Xsd.C63_stable g2 g3 g4 g5 g6
      exact ⟨out.utf8Encode, memberOut_ok.2 ⟨bytes, h1, fun _ => ⟨text, b, out, g1, i1, i2, rfl⟩, fun h => absurd hq h⟩⟩
    · exact ⟨bytes, memberOut_ok.2 ⟨bytes, h1, fun h => absurd h hq, fun _ => rfl⟩⟩)
  exact ⟨members, repacked_iff.1 hm⟩

/-- **C76**, content.  If the ReqIF documents of an archive are plain, passthrough writes an archive
with the same names; every attachment has the bytes it had; every document says what
is listed in C71, is valid in the sense of C72 and has the identifiers and references of C75. -/
theorem C76_content {os : OsEnv} {src : ByteArray} {ar : Archive} (ha : os.zipRead src = .ok ar) (hp : PlainArchive ar)
    (hz : ∀ members, Repacked ar members → os.zipRead (os.zipWrite members) = .ok (archiveOf members)) :
    ∃ out ar', passthroughZBytes os (.ok src) = .ok out ∧ os.zipRead out = .ok ar' ∧
      (ar'.map (·.1)).Nodup ∧ (∀ n, n ∈ ar'.map (·.1) ↔ n ∈ ar.map (·.1)) ∧
      (∀ n bytes, memberContent ar n = some (.ok bytes) → ¬ ReqifMember n → memberContent ar' n = some (.ok bytes)) ∧
      ∀ n bytes doc, memberContent ar n = some (.ok bytes) → ReqifMember n → PlainMember bytes doc →
        ∃ text' doc', memberContent ar' n = some (.ok text'.utf8Encode) ∧ readDoc text' = some doc' ∧
          Xsd.saidInside doc'.root = Xsd.saidInside (Xsd.writtenRoot doc.root) ∧
          (Xsd.validRoot .xsd doc.root = true → Xsd.validRoot .xsd doc'.root = Xsd.keepsRequired .reqIf doc.root) ∧
          (Xsd.identifiersUnique (Xsd.documentEntries doc'.root) ↔ Xsd.identifiersUnique (Xsd.documentEntries doc.root)) ∧
          (Xsd.referencesResolve (Xsd.documentEntries doc.root) → Xsd.referencesResolve (Xsd.documentEntries doc'.root)) := by
  obtain ⟨members, hr⟩ := plain_repacked hp
  have hn : (members.map (·.1)).Nodup := hr.1 ▸ repackedNames_nodup ar
  have hnames : (archiveOf members).map (·.1) = members.map (·.1) := by
    unfold archiveOf
    rw [List.map_map]
    rfl
  have hmem : ∀ n bytes, memberContent ar n = some (.ok bytes) → ∃ m ∈ members, m.1 = n := by
    intro n bytes h
    unfold memberContent at h
    cases hl : lastWith (fun m : Str × Py ByteArray => m.1) n ar with
    | none => rw [hl] at h; cases h
    | some m =>
      unfold lastWith at hl
      have h1 := List.mem_filter.1 (List.mem_of_getLast? hl)
      have : n ∈ members.map (·.1) := by
        rw [hr.1, repackedNames_mem]
        exact List.mem_map.2 ⟨m, h1.1, by simpa using h1.2⟩
      obtain ⟨m', g1, g2⟩ := List.mem_map.1 this
      exact ⟨m', g1, g2⟩
  refine ⟨os.zipWrite members, archiveOf members, C76_archive.2 ⟨ar, members, ha, hr, rfl⟩, hz members hr, by rw [hnames]; exact hn, ?_, ?_, ?_⟩
  · intro n
    rw [hnames, hr.1, repackedNames_mem]
  · intro n bytes h hq
    obtain ⟨m, hm, rfl⟩ := hmem n bytes h
    obtain ⟨bytes0, g1, -, g2⟩ := hr.2 m hm
    rw [g1] at h
    cases h
    rw [memberContent_of hn hm, g2 hq]
  · rintro n bytes doc h hq ⟨text, p, g1, g2, g3, g4, g5, g6⟩
    obtain ⟨m, hm, rfl⟩ := hmem n bytes h
    obtain ⟨bytes0, i1, i2, -⟩ := hr.2 m hm
    rw [i1] at h
    cases h
    obtain ⟨text0, b, out, j1, j2, j3, j4⟩ := i2 hq
    rw [g1] at j1
    cases j1
    obtain ⟨b1, out1, d, k1, k2, k3, k4⟩ := Xsd.C71_content g2 g3 g4 g5 g6
    rw [j2] at k1; cases k1
    rw [j3] at k2; cases k2
    obtain ⟨b1, out1, d1, l1, l2, l3, l4, l5⟩ := Xsd.C75_integrity g2 g3 g4 g5 g6
    rw [j2] at l1; cases l1
    rw [j3] at l2; cases l2
    rw [k3] at l3; cases l3
    refine ⟨out, d, by rw [memberContent_of hn hm, j4], k3, k4, ?_, l4, l5⟩
    intro hx
    obtain ⟨b1, out1, d1, l1, l2, l3, l4⟩ := Xsd.C72_valid g2 hx g3 g4 g5
    rw [j2] at l1; cases l1
    rw [j3] at l2; cases l2
    rw [k3] at l3; cases l3
    exact l4

/-- **C76**, stability: passthrough of the new archive gives the same archive. -/
theorem C76_again {os : OsEnv} {src : ByteArray} {ar : Archive} (ha : os.zipRead src = .ok ar) (hp : PlainArchive ar)
    (hz : ∀ members, Repacked ar members → os.zipRead (os.zipWrite members) = .ok (archiveOf members)) :
    ∃ out, passthroughZBytes os (.ok src) = .ok out ∧ passthroughZBytes os (.ok out) = .ok out := by
  obtain ⟨members, hr⟩ := plain_repacked hp
  have hn : (members.map (·.1)).Nodup := hr.1 ▸ repackedNames_nodup ar
  refine ⟨os.zipWrite members, C76_archive.2 ⟨ar, members, ha, hr, rfl⟩,
    C76_archive.2 ⟨archiveOf members, members, hz members hr, ⟨(repackedNames_again hr.1).symm, fun m hm => ?_⟩, rfl⟩⟩
  refine ⟨m.2, memberContent_of hn hm, fun hq => ?_, fun _ => rfl⟩
  have hin : m.1 ∈ ar.map (·.1) := by
    rw [← repackedNames_mem, ← hr.1]
    exact List.mem_map.2 ⟨m, hm, rfl⟩
  obtain ⟨bytes, h1, h2⟩ := hp m.1 hin
  obtain ⟨doc, text, p, g1, g2, g3, g4, g5, g6⟩ := h2 hq
  obtain ⟨bytes0, i1, i2, -⟩ := hr.2 m hm
  rw [h1] at i1
  cases i1
  obtain ⟨text0, b, out, j1, j2, j3, j4⟩ := i2 hq
  rw [g1] at j1
  cases j1
  obtain ⟨b1, out1, b', k1, k2, k3, k4, -⟩ := Xsd.C63_stable g2 g3 g4 g5 g6
  rw [j2] at k1; cases k1
  rw [j3] at k2; cases k2
  exact ⟨out, b', out, by rw [j4, decodeUtf8_encode], k3, k4, j4⟩

/-! ## An archive -/

/-- There is at most one such archive. -/
theorem repacked_unique {ar : Archive} {ms ms' : List (Str × ByteArray)} (h : Repacked ar ms) (h' : Repacked ar ms') : ms = ms' := by
  have e := (repacked_iff.2 h).symm.trans (repacked_iff.2 h')
  refine List.map_inj_right (f := fun m : Str × ByteArray => (m.1, (Except.ok m.2 : Py ByteArray))) ?_ |>.1 e
  rintro ⟨a, b⟩ ⟨c, d⟩ h
  injection h with h1 h2
  injection h2 with h2
  dsimp only at h1 h2
  rw [h1, h2]

/-- For every plain archive there is a zip library as the theorems want it. -/
example {ar : Archive} (hp : PlainArchive ar) : ∃ (os : OsEnv) (src : ByteArray), os.zipRead src = .ok ar ∧
    ∀ members, Repacked ar members → os.zipRead (os.zipWrite members) = .ok (archiveOf members) := by
  obtain ⟨members, hr⟩ := plain_repacked hp
  refine ⟨⟨fun _ => true, fun _ => none, fun bytes => if bytes.size = 0 then .ok ar else .ok (archiveOf members), fun _ => ⟨#[0]⟩⟩,
    ⟨#[]⟩, rfl, fun members' h => ?_⟩
  rw [repacked_unique h hr]
  rfl

/-- A picture, a document under two names, and an old version of one of them under the same name. -/
noncomputable def smallArchive : Archive :=
  [(c!"files/p.png", .ok ⟨#[1, 2, 255]⟩), (c!"a.reqif", .ok ⟨#[]⟩), (c!"b.xml", .ok Xsd.keptDoc.utf8Encode),
   (c!"a.reqif", .ok Xsd.lossyDoc.utf8Encode)]

theorem plainMember_of {text p : Str} {o : Bool} (h : Xsd.meetsAll p text = some (true, o)) : ∃ doc, PlainMember text.utf8Encode doc := by
  unfold Xsd.meetsAll at h
  cases hd : readDoc text with
  | none => rw [hd] at h; cases h
  | some doc =>
    rw [hd] at h
    dsimp only at h
    injection h with h
    injection h with h _
    simp only [Bool.and_eq_true] at h
    exact ⟨doc, text, p, decodeUtf8_encode text, hd, h.1.1.1, h.1.1.2, h.1.2, by
      intro hc
      rw [hc] at h
      cases h.2⟩

set_option maxRecDepth 20000 in
/-- It is plain: of several members with a name only the last one counts. -/
example : PlainArchive smallArchive := by
  have h1 : ∃ doc, PlainMember Xsd.lossyDoc.utf8Encode doc := plainMember_of (p := c!"h") (o := false) (by decide +kernel)
  have h2 : ∃ doc, PlainMember Xsd.keptDoc.utf8Encode doc := plainMember_of (p := c!"h") (o := true) (by decide +kernel)
  intro n hn
  simp only [smallArchive, List.map_cons, List.map_nil, List.mem_cons, List.not_mem_nil, or_false] at hn
  have hpng : ¬ ReqifMember c!"files/p.png" := by
    rw [← C31_names]
    decide
  rcases hn with rfl | rfl | rfl | rfl
  · exact ⟨_, rfl, fun h => absurd h hpng⟩
  · exact ⟨_, rfl, fun _ => h1⟩
  · exact ⟨_, rfl, fun _ => h2⟩
  · exact ⟨_, rfl, fun _ => h1⟩

/-- Its names come out in another order, and each once. -/
example : repackedNames smallArchive = [c!"a.reqif", c!"b.xml", c!"files/p.png"] := rfl

end ReqIF

import Verif.Props.C42_45
import Verif.Props.C52_55
import Verif.Props.C25_31
/-!
# C30: ReqIFz archives round-trip
-/
namespace ReqIF
open Spec

/-- A callback that never raises (or no callback). -/
def Quiet {σ : Type} (p : Option (Callback σ)) : Prop := ∀ sec k n s, ∃ s', notify p sec k n s = (.ok (), s')

theorem quiet_none {σ : Type} : Quiet (none : Option (Callback σ)) := fun _ _ _ s => ⟨s, rfl⟩

theorem writeLoop_quiet {σ α : Type} {p : Option (Callback σ)} (hp : Quiet p) (total : Nat) (f : α → Py ByteArray) (g : α → ByteArray) :
    ∀ (xs : Dict Str α) (k : Nat) (out : List (Str × ByteArray)) (s : σ), (∀ m ∈ xs, f m.2 = .ok (g m.2)) →
      ∃ s', writeLoop p total f k out xs s = (.ok (out ++ xs.map (fun m => (m.1, g m.2)), k + xs.length), s')
  | [], k, out, s, _ => ⟨s, by simp [writeLoop, M.pure]⟩
  | (n, x) :: xs, k, out, s, h => by
    obtain ⟨s1, h1⟩ := hp n (k + 1) total s
    obtain ⟨s2, h2⟩ := writeLoop_quiet hp total f g xs (k + 1) (out ++ [(n, g x)]) s1 (fun m hm => h m (by simp [hm]))
    refine ⟨s2, ?_⟩
    rw [writeLoop]
    refine (M.bind_ok (s' := s) (a := g x) (by simp only [M.lift]; rw [h (n, x) (by simp)])).trans ?_
    refine (M.bind_ok h1).trans ?_
    rw [h2]
    simp only [List.append_assoc, List.map_cons, List.length_cons, List.cons_append, List.nil_append]
    rw [Nat.add_assoc, Nat.add_comm 1]

theorem readMember_mem {ar : Archive} (hn : (ar.map (·.1)).Nodup) {m : Str × Py ByteArray} (hm : m ∈ ar) : readMember ar m.1 = m.2 := by
  induction ar with
  | nil => cases hm
  | cons x ar ih =>
    obtain ⟨n, r⟩ := x
    rw [List.map_cons, List.nodup_cons] at hn
    rw [readMember]
    rcases List.mem_cons.1 hm with rfl | _
    · rw [if_pos rfl, if_neg]
      simpa using hn.1
    · rename_i hm'
      rw [if_neg, ih hn.2 hm']
      rintro rfl
      exact hn.1 (List.mem_map_of_mem (f := (·.1)) hm')

theorem Dict.set_new {ν : Type} {d : Dict Str ν} {k : Str} {v : ν} (h : k ∉ d.map (·.1)) : d.set k v = d ++ [(k, v)] := by
  induction d with
  | nil => rfl
  | cons x d ih =>
    obtain ⟨a, w⟩ := x
    rw [List.map_cons, List.mem_cons, not_or] at h
    simp only [Dict.set]
    rw [if_neg (Ne.symm h.1), ih h.2]
    rfl

theorem membersLoop_bundles {σ : Type} {p : Option (Callback σ)} (hp : Quiet p) (ar : Archive) (total : Nat) (back : Bundle → Bundle) :
    ∀ (xs : Dict Str Bundle) (names : List Str) (k : Nat) (acc : ZBundle) (s : σ),
      (∀ m ∈ xs, ReqifMember m.1 ∧ ∃ t, readMember ar m.1 = .ok t.utf8Encode ∧ parseString t = .ok (back m.2)) →
      (acc.reqifBundles.map (·.1) ++ xs.map (·.1)).Nodup →
      ∃ s', membersLoop p ar total k acc (xs.map (·.1) ++ names) s =
        membersLoop p ar total (k + xs.length) ⟨acc.reqifBundles ++ xs.map (fun m => (m.1, back m.2)), acc.attachments⟩ names s'
  | [], names, k, acc, s, _, _ => ⟨s, by simp⟩
  | (n, b) :: xs, names, k, acc, s, h, hn => by
    obtain ⟨s1, h1⟩ := hp n (k + 1) total s
    obtain ⟨hm, t, ht, hb⟩ := h (n, b) (by simp)
    have hnew : n ∉ acc.reqifBundles.map (·.1) := by
      intro hc
      rw [List.nodup_append] at hn
      exact hn.2.2 n hc n (by simp) rfl
    have hstep : memberStep ar acc n = .ok ⟨acc.reqifBundles ++ [(n, back b)], acc.attachments⟩ := by
      unfold memberStep
      rw [ht]
      dsimp only
      rw [if_pos ((C31_names n).2 hm), decodeUtf8_encode]
      dsimp only
      rw [hb]
      dsimp only
      rw [Dict.set_new hnew]
    obtain ⟨s2, h2⟩ := membersLoop_bundles hp ar total back xs names (k + 1) ⟨acc.reqifBundles ++ [(n, back b)], acc.attachments⟩ s1
      (fun m hm => h m (by simp [hm])) (by simpa using hn)
    refine ⟨s2, ?_⟩
    rw [List.map_cons, List.cons_append, membersLoop]
    refine (M.bind_ok (s' := s) (by simp only [M.lift]; rw [hstep])).trans ?_
    refine (M.bind_ok h1).trans ?_
    rw [h2]
    simp only [List.append_assoc, List.map_cons, List.length_cons, List.cons_append, List.nil_append]
    rw [Nat.add_assoc, Nat.add_comm 1]

theorem membersLoop_attachments {σ : Type} {p : Option (Callback σ)} (hp : Quiet p) (ar : Archive) (total : Nat) :
    ∀ (xs : Dict Str ByteArray) (k : Nat) (acc : ZBundle) (s : σ),
      (∀ m ∈ xs, ¬ ReqifMember m.1 ∧ readMember ar m.1 = .ok m.2) →
      (acc.attachments.map (·.1) ++ xs.map (·.1)).Nodup →
      ∃ s', membersLoop p ar total k acc (xs.map (·.1)) s = (.ok ⟨acc.reqifBundles, acc.attachments ++ xs⟩, s')
  | [], k, acc, s, _, _ => ⟨s, by simp [membersLoop, M.pure]⟩
  | (n, b) :: xs, k, acc, s, h, hn => by
    obtain ⟨s1, h1⟩ := hp n (k + 1) total s
    obtain ⟨hm, hb⟩ := h (n, b) (by simp)
    have hnew : n ∉ acc.attachments.map (·.1) := by
      intro hc
      rw [List.nodup_append] at hn
      exact hn.2.2 n hc n (by simp) rfl
    have hstep : memberStep ar acc n = .ok ⟨acc.reqifBundles, acc.attachments ++ [(n, b)]⟩ := by
      unfold memberStep
      rw [hb]
      dsimp only
      rw [if_neg (fun hc => hm ((C31_names n).1 hc)), Dict.set_new hnew]
    obtain ⟨s2, h2⟩ := membersLoop_attachments hp ar total xs (k + 1) ⟨acc.reqifBundles, acc.attachments ++ [(n, b)]⟩ s1
      (fun m hm => h m (by simp [hm])) (by simpa using hn)
    refine ⟨s2, ?_⟩
    rw [List.map_cons, membersLoop]
    refine (M.bind_ok (s' := s) (by simp only [M.lift]; rw [hstep])).trans ?_
    refine (M.bind_ok h1).trans ?_
    rw [h2]
    simp

/-- The text a bundle is printed as, if it can be printed. -/
noncomputable def printedText (b : Bundle) : Str :=
  match unparse b with
  | .ok t => t
  | .error _ => []

/-- **C30.** Writing an archive and reading it back.  The names are different from each other
(the dictionaries give that for each kind), those of the ReqIF files have the extension `.reqif` or `.xml`
and those of the attachments do not, and every bundle can be printed and what is printed is
read as `back` of it.  Then the archive is written, its members are the names in order, and
reading it gives the same names in the same order, each bundle as it comes back by itself and
each attachment with the same bytes. -/
theorem C30_roundtrip {σ τ : Type} (p : Option (Callback σ)) (q : Option (Callback τ)) (hp : Quiet p) (hq : Quiet q) (z : ZBundle) (back : Bundle → Bundle)
    (hn1 : (z.reqifBundles.map (·.1)).Nodup) (hn2 : (z.attachments.map (·.1)).Nodup)
    (hr : ∀ m ∈ z.reqifBundles, ReqifMember m.1) (ha : ∀ m ∈ z.attachments, ¬ ReqifMember m.1)
    (hb : ∀ m ∈ z.reqifBundles, ∃ t, unparse m.2 = .ok t ∧ parseString t = .ok (back m.2)) :
    ∃ members, (∀ s, (unparseZ p z s).1 = .ok members) ∧ members.map (·.1) = z.reqifBundles.map (·.1) ++ z.attachments.map (·.1) ∧
      ∀ s, (parseZ q (.ok (archiveOf members)) s).1 = .ok ⟨z.reqifBundles.map (fun m => (m.1, back m.2)), z.attachments⟩ := by
  have hbytes : ∀ m ∈ z.reqifBundles, bundleBytes m.2 = .ok (printedText m.2).utf8Encode := by
    intro m hm
    obtain ⟨t, h1, -⟩ := hb m hm
    unfold bundleBytes printedText
    rw [h1]
  refine ⟨z.reqifBundles.map (fun m => (m.1, (printedText m.2).utf8Encode)) ++ z.attachments, ?_, ?_, ?_⟩
  · intro s
    obtain ⟨s1, h1⟩ := writeLoop_quiet hp (z.reqifBundles.length + z.attachments.length) bundleBytes (fun b => (printedText b).utf8Encode)
      z.reqifBundles 0 [] s hbytes
    obtain ⟨s2, h2⟩ := writeLoop_quiet hp (z.reqifBundles.length + z.attachments.length) Except.ok (fun b => b)
      z.attachments (0 + z.reqifBundles.length) ([] ++ z.reqifBundles.map (fun m => (m.1, (printedText m.2).utf8Encode))) s1 (fun _ _ => rfl)
    unfold unparseZ
    rw [M.bind_ok h1, M.bind_ok h2]
    simp [M.pure]
  · rw [List.map_append, List.map_map]
    rfl
  · intro s
    generalize hmem : z.reqifBundles.map (fun m => (m.1, (printedText m.2).utf8Encode)) ++ z.attachments = members
    have hnames : (archiveOf members).map (·.1) = z.reqifBundles.map (·.1) ++ z.attachments.map (·.1) := by
      rw [← hmem]
      unfold archiveOf
      rw [List.map_map, List.map_append, List.map_map]
      rfl
    have hnd : ((archiveOf members).map (·.1)).Nodup := by
      rw [hnames, List.nodup_append]
      refine ⟨hn1, hn2, ?_⟩
      rintro a h1 b h2 rfl
      obtain ⟨m1, g1, e1⟩ := List.mem_map.1 h1
      obtain ⟨m2, g2, e2⟩ := List.mem_map.1 h2
      refine ha m2 g2 ?_
      rw [e2, ← e1]
      exact hr m1 g1
    obtain ⟨s1, h1⟩ := membersLoop_bundles hq (archiveOf members) (archiveOf members).length back z.reqifBundles (z.attachments.map (·.1)) 0 ⟨[], []⟩ s
      (by
        intro m hm
        refine ⟨hr m hm, printedText m.2, ?_, ?_⟩
        · refine readMember_mem hnd (m := (m.1, .ok (printedText m.2).utf8Encode)) ?_
          rw [← hmem]
          unfold archiveOf
          rw [List.map_append, List.map_map]
          exact List.mem_append_left _ (List.mem_map.2 ⟨m, hm, rfl⟩)
        · obtain ⟨t, e1, e2⟩ := hb m hm
          unfold printedText
          rw [e1]
          exact e2) (by simpa using hn1)
    obtain ⟨s2, h2⟩ := membersLoop_attachments hq (archiveOf members) (archiveOf members).length z.attachments (0 + z.reqifBundles.length)
      ⟨[] ++ z.reqifBundles.map (fun m => (m.1, back m.2)), []⟩ s1
      (by
        intro m hm
        refine ⟨ha m hm, ?_⟩
        refine readMember_mem hnd (m := (m.1, .ok m.2)) ?_
        rw [← hmem]
        unfold archiveOf
        rw [List.map_append]
        exact List.mem_append_right _ (List.mem_map.2 ⟨m, hm, rfl⟩)) (by simpa using hn2)
    unfold parseZ wrapZ
    rw [M.bind_ok (m := M.lift (.ok (archiveOf members))) (s := s) (s' := s) (a := archiveOf members) rfl, hnames, h1, h2]
    simp

/-- **C30**, for bundles that survive by themselves (C43): every bundle comes back under its
name, every attachment with the same bytes. -/
theorem C30_bundles (z : ZBundle) (hn1 : (z.reqifBundles.map (·.1)).Nodup) (hn2 : (z.attachments.map (·.1)).Nodup)
    (hr : ∀ m ∈ z.reqifBundles, ReqifMember m.1) (ha : ∀ m ∈ z.attachments, ¬ ReqifMember m.1)
    (hb : ∀ m ∈ z.reqifBundles, ∃ as pre, SafeBundle as pre m.2) :
    ∃ members z', (unparseZ (none : Option (Callback Unit)) z ()).1 = .ok members ∧
      (parseZ (none : Option (Callback Unit)) (.ok (archiveOf members)) ()).1 = .ok z' ∧
      z'.attachments = z.attachments ∧ z'.reqifBundles.map (·.1) = z.reqifBundles.map (·.1) ∧
      ∀ n b, (n, b) ∈ z.reqifBundles → ∃ b' as, (n, b') ∈ z'.reqifBundles ∧ ReadsBack as b b' := by
  obtain ⟨members, h1, -, h3⟩ := C30_roundtrip (none : Option (Callback Unit)) (none : Option (Callback Unit)) quiet_none quiet_none z
    (fun b => match unparse b with
      | .ok t => (match parseString t with | .ok b' => b' | .error _ => b)
      | .error _ => b) hn1 hn2 hr ha (by
    intro m hm
    obtain ⟨as, pre, hs⟩ := hb m hm
    obtain ⟨t, b', e1, e2, -⟩ := C43_roundtrip hs
    refine ⟨t, e1, ?_⟩
    rw [e1]
    dsimp only
    rw [e2])
  refine ⟨members, _, h1 (), h3 (), rfl, ?_, ?_⟩
  · rw [List.map_map]
    rfl
  · intro n b hm
    obtain ⟨as, pre, hs⟩ := hb (n, b) hm
    obtain ⟨t, b', e1, e2, e3⟩ := C43_roundtrip hs
    refine ⟨b', as, ?_, e3⟩
    refine List.mem_map.2 ⟨(n, b), hm, ?_⟩
    dsimp only
    dsimp only at e1
    rw [e1]
    dsimp only
    rw [e2]

/-- **C30**, the opposite: a bundle under any other name comes back as an attachment, the text
printed for it. -/
theorem C30_other_name (n : Str) (b : Bundle) (t : Str) (hn : ¬ ReqifMember n) (ht : unparse b = .ok t) :
    ∃ members, (unparseZ (none : Option (Callback Unit)) ⟨[(n, b)], []⟩ ()).1 = .ok members ∧
      (parseZ (none : Option (Callback Unit)) (.ok (archiveOf members)) ()).1 = .ok ⟨[], [(n, t.utf8Encode)]⟩ := by
  have hb : bundleBytes b = .ok t.utf8Encode := by unfold bundleBytes; rw [ht]
  refine ⟨[(n, t.utf8Encode)], ?_, ?_⟩
  · simp only [unparseZ, writeLoop, M.bind, M.lift, M.pure, notify, hb]
    rfl
  · have hs : memberStep (archiveOf [(n, t.utf8Encode)]) ⟨[], []⟩ n = .ok ⟨[], [(n, t.utf8Encode)]⟩ := by
      unfold memberStep
      rw [readMember_mem (ar := archiveOf [(n, t.utf8Encode)]) (m := (n, .ok t.utf8Encode)) (by simp [archiveOf]) (by simp [archiveOf])]
      dsimp only
      rw [if_neg (fun hc => hn ((C31_names n).1 hc))]
      rfl
    unfold parseZ wrapZ
    simp only [M.bind, M.lift, archiveOf, List.map_cons, List.map_nil, membersLoop, M.pure, notify]
    have hs' : memberStep [(n, Except.ok t.utf8Encode)] ⟨[], []⟩ n = .ok ⟨[], [(n, t.utf8Encode)]⟩ := hs
    rw [hs']

/-- **C30**, the opposite: an attachment with the name of a ReqIF file that is not one makes
the archive unreadable. -/
theorem C30_attachment_name (n t : Str) (e : PyErr) (hn : ReqifMember n) (ht : parseString t = .error e) :
    ∃ members, (unparseZ (none : Option (Callback Unit)) ⟨[], [(n, t.utf8Encode)]⟩ ()).1 = .ok members ∧
      (parseZ (none : Option (Callback Unit)) (.ok (archiveOf members)) ()).1 = .error .reqifz := by
  refine ⟨[(n, t.utf8Encode)], rfl, ?_⟩
  have hs : memberStep [(n, Except.ok t.utf8Encode)] ⟨[], []⟩ n = .error e := by
    unfold memberStep
    rw [readMember_mem (ar := [(n, Except.ok t.utf8Encode)]) (m := (n, .ok t.utf8Encode)) (by simp) (by simp)]
    dsimp only
    rw [if_pos ((C31_names n).2 hn), decodeUtf8_encode]
    dsimp only
    rw [ht]
  unfold parseZ wrapZ
  simp only [M.bind, M.lift, archiveOf, List.map_cons, List.map_nil, membersLoop, M.pure, notify]
  rw [hs]

/-! ## Non-vacuity -/

/-- An archive with a ReqIF file and two attachments, one of them empty. -/
def exampleArchive : ZBundle :=
  ⟨[(c!"a.reqif", exampleBundle), (c!"d/b.xml", exampleBundle)], [(c!"files/x.png", ⟨#[1, 2]⟩), (c!".reqif", ⟨#[]⟩)]⟩

example : (exampleArchive.reqifBundles.map (·.1)).Nodup ∧ (exampleArchive.attachments.map (·.1)).Nodup ∧
    (∀ m ∈ exampleArchive.reqifBundles, ReqifMember m.1) ∧ (∀ m ∈ exampleArchive.attachments, ¬ ReqifMember m.1) ∧
    ∀ m ∈ exampleArchive.reqifBundles, ∃ as pre, SafeBundle as pre m.2 := by
  refine ⟨by decide, by decide, ?_, ?_, ?_⟩
  · intro m hm
    rw [← C31_names]
    simp only [exampleArchive, List.mem_cons, List.not_mem_nil, or_false] at hm
    rcases hm with rfl | rfl <;> decide +kernel
  · intro m hm
    rw [← C31_names]
    simp only [exampleArchive, List.mem_cons, List.not_mem_nil, or_false] at hm
    rcases hm with rfl | rfl <;> decide +kernel
  · intro m hm
    simp only [exampleArchive, List.mem_cons, List.not_mem_nil, or_false] at hm
    rcases hm with rfl | rfl <;> exact ⟨_, _, exampleBundle_safe⟩

end ReqIF

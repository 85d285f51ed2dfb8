import Verif.Proofs.ReadWhile
import Verif.Props.CliCrash
import Verif.Props.Provider
/-!
# C119: reading a MAUS file while it is written
-/

namespace Verif

/-- **C119** (exact) what can be read while the file is written, whatever the order of the operations and the sizes of the pieces: nothing,
if there has been no file; or the first `k` bytes of the old content, continued by what is behind position `k` in the part of the new content
that had been written — for all `k` and `m` -/
theorem C119_reads (old : Option Bytes) (new : Bytes) (result : Option Bytes) :
    CanRead old new result ↔ (result = none ∧ old = none) ∨
      ∃ k m : Nat, k ≤ (old.getD []).length ∧ result = some (mixed (old.getD []) new k m) := by
  constructor
  · rintro ⟨ops, hops⟩
    have inv := readWrite_run (new := new) ops (readWrite_start old new)
    cases result with
    | none => exact .inl ⟨rfl, inv.missing hops⟩
    | some got =>
      obtain ⟨k, m, h1, h2⟩ := inv.done got hops
      exact .inr ⟨k, m, h2, by rw [h1]⟩
  · rintro (⟨rfl, rfl⟩ | ⟨k, m, hk, rfl⟩)
    · exact ⟨[.openFile], rfl⟩
    · have tail : ∀ got : Bytes, got = (old.getD []).take k → got.length = k →
          ((ReadWriteState.mk old none (.reading got)).run new [.truncate, .write m, .read m, .read 0]).reader =
            .done (some (mixed (old.getD []) new k m)) := by
        intro got h1 h2
        simp only [ReadWriteState.run, List.foldl_cons, List.foldl_nil, ReadWriteState.step, Option.getD_some, List.nil_append, h2]
        have hall : ((new.take m).drop k).take (m + 1) = (new.take m).drop k := by
          apply List.take_of_length_le
          simp only [List.length_drop, List.length_take]
          omega
        rw [hall]
        by_cases he : ((new.take m).drop k).isEmpty
        · have he' := List.isEmpty_iff.1 he
          simp only [he', List.isEmpty_nil, if_true, mixed, List.append_nil, h1]
        · simp only [he, Bool.false_eq_true, if_false]
          have hlen : (got ++ (new.take m).drop k).length = k + ((new.take m).length - k) := by
            rw [List.length_append, h2, List.length_drop]
          have hend : (new.take m).drop (got ++ (new.take m).drop k).length = [] := by
            apply List.drop_eq_nil_of_le
            rw [hlen]
            omega
          simp only [hend, List.take_nil, List.isEmpty_nil, if_true, mixed]
          rw [h1]
      cases old with
      | none =>
        have hk0 : k = 0 := by simpa using hk
        subst hk0
        refine ⟨[.truncate, .write m, .openFile, .read m, .read 0], ?_⟩
        have := tail [] rfl rfl
        simpa [ReadWriteState.run, ReadWriteState.step, ReadWriteState.start] using this
      | some o =>
        simp only [Option.getD_some] at hk tail ⊢
        cases k with
        | zero =>
          refine ⟨[.openFile, .truncate, .write m, .read m, .read 0], ?_⟩
          have := tail [] rfl rfl
          simpa [ReadWriteState.run, ReadWriteState.step, ReadWriteState.start] using this
        | succ k =>
          refine ⟨[.openFile, .read k, .truncate, .write m, .read m, .read 0], ?_⟩
          have hne : (o.take (k + 1)).isEmpty = false := by
            cases o with
            | nil => simp at hk
            | cons x o => rfl
          have := tail (o.take (k + 1)) rfl (by simp only [List.length_take]; omega)
          rw [← this]
          simp only [ReadWriteState.run, List.foldl_cons, ReadWriteState.step, ReadWriteState.start, Option.isSome_some, if_true,
            List.length_nil, List.drop_zero, Option.getD_some, List.nil_append, hne, Bool.false_eq_true, if_false]

/-- **C119** without a writer: what `mausOfBytes` says about the bytes read is what `get_maus` (Model/Cli.lean) does if it reads the file at one
moment -/
theorem C119_get_maus {F V : Type} (env : FileEnv) (cwd : FsPath) (basePath : PurePath) (toPath : F → V → PyStr → PyRes PurePath)
    (format : F) (version : V) (pruefidentifikator : PyStr) (rel : PurePath) (hrel : toPath format version pruefidentifikator = .ok rel)
    (w : FileWorld) :
    (w.fs.IsMissing (placeBelow cwd basePath rel) →
      (getMaus env cwd basePath decodeUtf8 toPath format version pruefidentifikator w).1 = mausOfBytes none) ∧
    ∀ content, ReadableAt env w.fs (placeBelow cwd basePath rel) content →
      (getMaus env cwd basePath decodeUtf8 toPath format version pruefidentifikator w).1 = mausOfBytes (some content) := by
  have h60 := (C60_get_maus env cwd basePath decodeUtf8 toPath format version pruefidentifikator decodeUtf8_not_missing w).2.1 rel hrel
  refine ⟨fun h => h60.1.2 h, fun content hread => ?_⟩
  have hnot := mt (getMausBody_notFound env decodeUtf8 decodeUtf8_not_missing (p := placeBelow cwd basePath rel) (w := w)).1
    (fun h => by
      have h' := resolve_missing.2 h
      have := contentAt_eq_some.1 hread.1
      rw [h'] at this
      cases this)
  rw [placeBelow_eq] at hread hnot
  have hrun : getMaus env cwd basePath decodeUtf8 toPath format version pruefidentifikator w =
      noneIfNotFound (getMausBody env decodeUtf8 ((basePath.join rel).resolved cwd)) w := by
    unfold getMaus
    rw [hrel, seq_of_ok (prog := FileProg.lift _) (w := w) (a := rel) (w' := w) rfl]
    rfl
  rw [hrun]
  have hbody : (getMausBody env decodeUtf8 ((basePath.join rel).resolved cwd) w).1 =
      (decodeUtf8 content).bind fun text => (jsonLoads text).bind DeepAhb.load := by
    unfold getMausBody
    rcases readBytes_cases env ((basePath.join rel).resolved cwd) w with ⟨b, h1, _, h⟩ | ⟨e, _, _, h⟩
    · rw [seq_of_ok h]
      have hb : b = content := by
        have h2 := hread.1
        rw [h1] at h2
        injection h2
      subst hb
      cases hd : decodeUtf8 b with
      | error e => rw [seq_of_error (prog := FileProg.lift _) rfl]; rfl
      | ok text => rw [seq_of_ok (prog := FileProg.lift _) rfl]; rfl
    · exact absurd ⟨content, hread⟩ h
  have hm : mausOfBytes (some content) = ((decodeUtf8 content).bind fun text => (jsonLoads text).bind DeepAhb.load).bind (.ok ∘ some) := by
    simp only [mausOfBytes, bind]
    cases decodeUtf8 content <;> rfl
  rw [hm, ← hbody]
  unfold noneIfNotFound
  rcases hb : getMausBody env decodeUtf8 ((basePath.join rel).resolved cwd) w with ⟨r, w'⟩
  rw [hb] at hnot
  cases r with
  | ok a => rfl
  | error e => cases e <;> first | rfl | exact absurd rfl hnot

/-- a part of a MAUS file, the whole of it included, as `get_maus` sees it -/
theorem mausOfBytes_part {maus : DeepAhb} (hc : maus.Constructed) {part : Bytes} (hp : part <+: mausBytes maus) :
    mausOfBytes (some part) = .error .valueError ∨ (maus.Complete ∧ mausOfBytes (some part) = .ok (some maus.resetAhbLineIndex)) ∨
      (¬ maus.Complete ∧ mausOfBytes (some part) = .error .validationError) := by
  by_cases hall : part = mausBytes maus
  · subst hall
    obtain ⟨h1, h2⟩ := C66_deep_text_round_trip_exact cliStyle maus hc
    right
    simp only [mausOfBytes, mausBytes, decodeUtf8_jsonDumps]
    by_cases hco : maus.Complete
    · exact .inl ⟨hco, by simp only [bind, Except.bind] at *; rw [h1 hco]; rfl⟩
    · exact .inr ⟨hco, by simp only [bind, Except.bind] at *; rw [h2 hco]⟩
  · left
    rcases C92_part_is_unreadable cliStyle _ maus.isPython_dump part hp hall with h | ⟨t, h1, h2, _⟩
    · simp only [mausOfBytes, h]
      rfl
    · simp only [mausOfBytes, h1, h2, bind, Except.bind]

/-- **C119** (partial: only for a file that is new or that is written once more with the same content) `get_maus` returns `None` (only if
there has been no file), raises a `ValueError`, or treats the new MAUS as if it had been read after it has been written. Missing: files whose
content changes; for them the claim is false (`C119_mixture`). -/
theorem C119_new_file_partial (maus : DeepAhb) (hc : maus.Constructed) (old : Option Bytes) (hold : old = none ∨ old = some (mausBytes maus))
    (result : Option Bytes) (h : CanRead old (mausBytes maus) result) :
    (old = none ∧ mausOfBytes result = .ok none) ∨ mausOfBytes result = .error .valueError ∨
      (maus.Complete ∧ mausOfBytes result = .ok (some maus.resetAhbLineIndex)) ∨
      (¬ maus.Complete ∧ mausOfBytes result = .error .validationError) := by
  rcases (C119_reads _ _ _).1 h with ⟨rfl, ho⟩ | ⟨k, m, hk, rfl⟩
  · exact .inl ⟨ho, rfl⟩
  · refine .inr (mausOfBytes_part hc ?_)
    rcases hold with rfl | rfl
    · simp only [mixed, Option.getD_none, List.take_nil, List.nil_append]
      have hk0 : k = 0 := by simpa using hk
      subst hk0
      exact List.take_prefix _ _
    · simp only [mixed, Option.getD_some]
      by_cases hkm : k ≤ m
      · have : (mausBytes maus).take k ++ ((mausBytes maus).take m).drop k = (mausBytes maus).take m := by
          have e : (mausBytes maus).take k = ((mausBytes maus).take m).take k := by rw [List.take_take, Nat.min_eq_left hkm]
          rw [e, List.take_append_drop]
        rw [this]
        exact List.take_prefix _ _
      · have : ((mausBytes maus).take m).drop k = [] := by
          apply List.drop_eq_nil_of_le
          simp only [List.length_take]
          omega
        rw [this, List.append_nil]
        exact List.take_prefix _ _

/-- **C119** (partial: only for a reader that opens the file after the writer has opened it) whatever the file contained before: `get_maus`
raises a `ValueError` or treats the new MAUS as if it had been read after it has been written -/
theorem C119_opened_later_partial (maus : DeepAhb) (hc : maus.Constructed) (old : Option Bytes) (before after : List ReadWriteOp)
    (hopen : ((ReadWriteState.start old).run (mausBytes maus) before).pending ≠ none)
    (hreader : ((ReadWriteState.start old).run (mausBytes maus) before).reader = .before) (result : Option Bytes)
    (h : ((ReadWriteState.start old).run (mausBytes maus) (before ++ after)).reader = .done result) :
    mausOfBytes result = .error .valueError ∨ (maus.Complete ∧ mausOfBytes result = .ok (some maus.resetAhbLineIndex)) ∨
      (¬ maus.Complete ∧ mausOfBytes result = .error .validationError) := by
  have inv := readWrite_run (new := mausBytes maus) before (readWrite_start old (mausBytes maus))
  unfold ReadWriteState.run at h
  rw [List.foldl_append] at h
  change (ReadWriteState.run (mausBytes maus) ((ReadWriteState.start old).run (mausBytes maus) before) after).reader = _ at h
  generalize (ReadWriteState.start old).run (mausBytes maus) before = s at *
  cases hp : s.pending with
  | none => exact absurd hp hopen
  | some rest =>
    obtain ⟨w, hw, hnew⟩ := inv.opened rest hp
    have hsame : s = (ReadWriteState.start none).run (mausBytes maus) [.truncate, .write w.length] := by
      obtain ⟨c, p, r⟩ := s
      simp only at hp hw hreader
      subst hp hw hreader
      simp only [ReadWriteState.run, List.foldl_cons, List.foldl_nil, ReadWriteState.step, ReadWriteState.start, List.nil_append]
      rw [← hnew, List.take_left', List.drop_left'] <;> rfl
    -- the state is also reached if there has been no file
    have h2 : CanRead none (mausBytes maus) result := by
      refine ⟨[.truncate, .write w.length] ++ after, ?_⟩
      unfold ReadWriteState.run
      rw [List.foldl_append]
      rw [hsame] at h
      exact h
    rcases (C119_reads _ _ _).1 h2 with ⟨rfl, _⟩ | ⟨k, m, hk, rfl⟩
    · exfalso
      -- a file that has been opened is there
      have key : ∀ (ops : List ReadWriteOp) (t : ReadWriteState), t.content ≠ none → t.reader ≠ .done none →
          (t.run (mausBytes maus) ops).reader ≠ .done none := by
        intro ops
        induction ops with
        | nil => intro t _ h2; exact h2
        | cons op ops ih =>
          intro t h1 h2
          refine ih _ ?_ ?_
          · cases op <;> simp only [ReadWriteState.step] <;> split <;> simp_all
          · cases op with
            | truncate => simp only [ReadWriteState.step]; split <;> simp_all
            | write n => simp only [ReadWriteState.step]; split <;> simp_all
            | openFile =>
              simp only [ReadWriteState.step]
              split
              · have : t.content.isSome := by
                  cases hx : t.content with
                  | none => exact absurd hx h1
                  | some _ => rfl
                simp [this]
              · exact h2
            | read n =>
              simp only [ReadWriteState.step]
              split
              · simp only
                split <;> simp
              · exact h2
      exact key after s (by simp [hw]) (by simp [hreader]) h
    · have hk0 : k = 0 := by simpa using hk
      subst hk0
      refine mausOfBytes_part hc ?_
      simp only [mixed, Option.getD_none, List.take_nil, List.nil_append]
      exact List.take_prefix _ _

/-- **C119** (partial: only for a reader that ends before the writer opens the file) the reader sees what was there before -/
theorem C119_ended_before_partial (old : Option Bytes) (new : Bytes) (ops : List ReadWriteOp) (result : Option Bytes)
    (hpending : ((ReadWriteState.start old).run new ops).pending = none)
    (h : ((ReadWriteState.start old).run new ops).reader = .done result) : result = old := by
  have key : ∀ (ops : List ReadWriteOp) (s : ReadWriteState),
      (s.pending = none → s.content = old ∧ (∀ got, s.reader = .reading got → got <+: old.getD [] ∧ old ≠ none) ∧
        ∀ r, s.reader = .done r → r = old) →
      ((s.run new ops).pending = none → ∀ r, (s.run new ops).reader = .done r → r = old) := by
    intro ops
    induction ops with
    | nil => intro s hs hp r hr; exact (hs hp).2.2 r hr
    | cons op ops ih =>
      intro s hs
      refine ih _ ?_
      cases op with
      | truncate =>
        simp only [ReadWriteState.step]
        cases hp : s.pending with
        | none => intro e; cases e
        | some rest => rw [hp] at hs; simp only [hp]; exact hs
      | write n =>
        simp only [ReadWriteState.step]
        cases hp : s.pending with
        | none => exact fun _ => hs hp
        | some rest =>
          cases hc : s.content with
          | none => simp [hp]
          | some c => simp
      | openFile =>
        simp only [ReadWriteState.step]
        cases hr : s.reader with
        | reading got => exact hs
        | done r => exact hs
        | before =>
          intro hp
          obtain ⟨h1, _, _⟩ := hs hp
          refine ⟨h1, fun got e => ?_, fun r e => ?_⟩
          · simp only at e
            split at e
            · rename_i hc
              cases e
              refine ⟨List.nil_prefix, fun ho => ?_⟩
              rw [h1, ho] at hc
              cases hc
            · cases e
          · simp only at e
            split at e
            · cases e
            · rename_i hc
              cases e
              rw [h1] at hc
              cases old with
              | none => rfl
              | some _ => simp at hc
      | read n =>
        simp only [ReadWriteState.step]
        cases hr : s.reader with
        | before => exact hs
        | done r => exact hs
        | reading got =>
          intro hp
          obtain ⟨h1, h2, _⟩ := hs hp
          obtain ⟨h2a, h2b⟩ := h2 got hr
          obtain ⟨t, ht⟩ := h2a
          have hdrop : (old.getD []).drop got.length = t := by rw [← ht]; simp
          refine ⟨h1, fun got' e => ?_, fun r e => ?_⟩
          · simp only [h1, hdrop] at e
            split at e
            · cases e
            · injection e with e
              subst e
              refine ⟨?_, h2b⟩
              rw [← ht]
              exact (List.prefix_append_right_inj _).2 (List.take_prefix _ _)
          · simp only [h1, hdrop] at e
            split at e
            · rename_i hem
              injection e with e
              subst e
              cases t with
              | cons x t => simp at hem
              | nil =>
                cases old with
                | none => exact absurd rfl h2b
                | some o => simp only [List.append_nil, Option.getD_some] at ht; rw [ht]
            · cases e
  exact key ops (ReadWriteState.start old) (fun _ => ⟨rfl, fun _ e => (by cases e), fun _ e => (by cases e)⟩) hpending result h

/-! ## a mixture of two files -/

/-- the old MAUS -/
def exOldMaus : DeepAhb := { ahbMeta := { pruefidentifikator := py!"11042", description := some py!"Anmeldung" }, lines := [] }

/-- the new MAUS -/
def exNewMaus : DeepAhb := { ahbMeta := { pruefidentifikator := py!"55001", description := some py!"Abmeldung" }, lines := [] }

/-- description of the old, pruefidentifikator of the new MAUS -/
def exMixedMaus : DeepAhb := { ahbMeta := { pruefidentifikator := py!"55001", description := some py!"Anmeldung" }, lines := [] }

theorem noLines_constructed {a : DeepAhb} (hm : AhbMetaInformation.new a.ahbMeta = .ok a.ahbMeta) (hl : a.lines = []) :
    a.Constructed ∧ a.Complete := by
  have hg : ∀ g, ¬ GroupOccurs a.lines g := by
    rintro g ⟨path, h⟩
    rw [hl] at h
    cases path with
    | nil => cases h
    | cons i path => cases path <;> simp [groupAt?] at h
  have hs : ∀ s, ¬ SegmentOccurs a.lines s := by
    rintro s ⟨g, h, _⟩
    exact hg g h
  have hd : ∀ de, ¬ DataElementOccurs a.lines de := by
    rintro de ⟨s, h, _⟩
    exact hs s h
  exact ⟨⟨hm, fun g h => absurd h (hg g), fun s h => absurd h (hs s), fun de h => absurd h (hd de)⟩,
    ⟨fun g h => absurd h (hg g), fun s h => absurd h (hs s), fun de h => absurd h (hd de)⟩⟩

/-- **C119** without these premises the claim is false: if the file is replaced while it is read, `get_maus` can return a MAUS that is neither
the old nor the new one (nor either of them without its line indices) -/
theorem C119_mixture : ∃ (old new wrong : DeepAhb) (result : Option Bytes), old.Constructed ∧ new.Constructed ∧
    CanRead (some (mausBytes old)) (mausBytes new) result ∧ mausOfBytes result = .ok (some wrong) ∧
    wrong ≠ old ∧ wrong ≠ new ∧ wrong ≠ old.resetAhbLineIndex ∧ wrong ≠ new.resetAhbLineIndex := by
  refine ⟨exOldMaus, exNewMaus, exMixedMaus, some (mixed (mausBytes exOldMaus) (mausBytes exNewMaus) 60 (mausBytes exNewMaus).length),
    (noLines_constructed rfl rfl).1, (noLines_constructed rfl rfl).1, ?_, ?_, ?_, ?_, ?_, ?_⟩
  · exact (C119_reads _ _ _).2 (.inr ⟨60, _, by decide +kernel, rfl⟩)
  · have hbytes : mixed (mausBytes exOldMaus) (mausBytes exNewMaus) 60 (mausBytes exNewMaus).length = mausBytes exMixedMaus := by
      decide +kernel
    obtain ⟨hc, hco⟩ := noLines_constructed (a := exMixedMaus) rfl rfl
    have h := (C66_deep_text_round_trip_exact cliStyle exMixedMaus hc).1 hco
    rw [hbytes]
    simp only [mausOfBytes, mausBytes, decodeUtf8_jsonDumps, bind, Except.bind] at *
    rw [h]
    rfl
  all_goals
    intro h
    have h := congrArg (fun a : DeepAhb => (a.ahbMeta.pruefidentifikator, a.ahbMeta.description)) h
    revert h
    decide +kernel

/-- the premises of `C119_get_maus` -/
example : (getMaus exFiles [] exBase decodeUtf8 exToPath py!"UTILMD" py!"FV2204" py!"11042" ⟨exMausFs, []⟩).1 =
    mausOfBytes (some (encodeUtf8 (jsonDumps exCliStyle exDeepComplete.dump))) :=
  (C119_get_maus exFiles [] exBase exToPath _ _ _ _ rfl ⟨exMausFs, []⟩).2 _ ⟨rfl, rfl⟩

/-- the premises of `C119_new_file_partial`: a run of the writer that is overtaken by the reader -/
example : CanRead none (mausBytes exNewMaus) (some ((mausBytes exNewMaus).take 20)) := by
  refine (C119_reads _ _ _).2 (.inr ⟨0, 20, Nat.le_refl _, ?_⟩)
  rfl

/-- the premises of `C119_opened_later_partial`: twenty bytes have been written when the file is opened, the rest is written later -/
example : ∃ before after : List ReadWriteOp,
    ((ReadWriteState.start (some (mausBytes exOldMaus))).run (mausBytes exNewMaus) before).pending ≠ none ∧
    ((ReadWriteState.start (some (mausBytes exOldMaus))).run (mausBytes exNewMaus) before).reader = .before ∧
    ((ReadWriteState.start (some (mausBytes exOldMaus))).run (mausBytes exNewMaus) (before ++ after)).reader =
      .done (some (mausBytes exNewMaus)) :=
  ⟨[.truncate, .write 20], [.openFile, .read 10, .write 4000, .read 8191, .read 8191], by decide +kernel, by decide +kernel, by decide +kernel⟩

/-- the premises of `C119_ended_before_partial` -/
example : ∃ ops : List ReadWriteOp,
    ((ReadWriteState.start (some (mausBytes exOldMaus))).run (mausBytes exNewMaus) ops).pending = none ∧
    ((ReadWriteState.start (some (mausBytes exOldMaus))).run (mausBytes exNewMaus) ops).reader = .done (some (mausBytes exOldMaus)) :=
  ⟨[.openFile, .read 10, .read 8191, .read 8191], by decide +kernel, by decide +kernel⟩

end Verif

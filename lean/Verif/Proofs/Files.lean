import Verif.Spec.Files
import Verif.Proofs.Dict
/-! lemmas about file systems and programs on files -/

namespace Verif
open FsNode

theorem fsGet_set {κ α : Type} [DecidableEq κ] (k k' : κ) (v : α) (d : List (κ × α)) :
    dictGet k' (dictSet k v d) = if k' = k then some v else dictGet k' d := by
  induction d with
  | nil =>
    simp only [dictSet, dictGet]
    by_cases h : k' = k
    · simp [h]
    · simp [h, Ne.symm h]
  | cons m d ih =>
    obtain ⟨a, b⟩ := m
    rw [dictSet]
    by_cases h : a = k
    · subst h
      rw [if_pos rfl]
      by_cases h' : k' = a
      · subst h'; simp [dictGet]
      · simp [dictGet, h', Ne.symm h']
    · rw [if_neg h]
      simp only [dictGet, ih]
      by_cases h' : a = k'
      · subst h'; simp [h]
      · simp [h']

theorem dictSet_set {κ α : Type} [DecidableEq κ] (k : κ) (v v' : α) (d : List (κ × α)) :
    dictSet k v' (dictSet k v d) = dictSet k v' d := by
  induction d with
  | nil => simp [dictSet]
  | cons m d ih =>
    obtain ⟨a, b⟩ := m
    by_cases h : a = k
    · simp [dictSet, h]
    · simp [dictSet, h, ih]

theorem map_eq_ok {α β : Type} {r : PyRes α} {f : α → β} {b : β} : r.map f = .ok b ↔ ∃ a, r = .ok a ∧ f a = b := by
  cases r with
  | error e => simp [Except.map]
  | ok a => simp [Except.map]

/-! ## `store` -/

theorem resolve_store {content : Bytes} : ∀ {p : FsPath} {n n' : FsNode}, n.store content p = .ok n' → n'.resolve p = .ok (.file content)
  | [], .file _, n', h => by cases h; rfl
  | [], .dir _, n', h => by cases h
  | _ :: _, .file _, n', h => by cases h
  | c :: p, .dir es, n', h => by
    rw [store] at h
    split at h
    · obtain ⟨m, hm, rfl⟩ := map_eq_ok.1 h
      rw [resolve, fsGet_set, if_pos rfl]
      exact resolve_store hm
    · split at h
      · rename_i hp
        cases h
        rw [List.isEmpty_iff.1 hp, resolve, fsGet_set, if_pos rfl]
        rfl
      · cases h

/-- storing only matters at the path itself -/
theorem resolve_store_other {content : Bytes} : ∀ {p : FsPath} {n n' : FsNode}, n.store content p = .ok n' → ∀ q, q ≠ p →
    (∀ b, n'.resolve q = .ok (.file b) ↔ n.resolve q = .ok (.file b)) ∧
    ((∃ es, n'.resolve q = .ok (.dir es)) ↔ ∃ es, n.resolve q = .ok (.dir es))
  | [], .file _, n', h, q, hq => by
    cases h
    cases q with
    | nil => exact absurd rfl hq
    | cons d q => simp [resolve]
  | [], .dir _, n', h, _, _ => by cases h
  | _ :: _, .file _, n', h, _, _ => by cases h
  | c :: p, .dir es, n', h, q, hq => by
    rw [store] at h
    split at h
    · rename_i m hm
      obtain ⟨m', hm', rfl⟩ := map_eq_ok.1 h
      cases q with
      | nil => simp [resolve]
      | cons d q =>
        rw [resolve, resolve, fsGet_set]
        by_cases hd : d = c
        · subst hd
          rw [if_pos rfl, hm]
          exact resolve_store_other hm' q (fun h => hq (by rw [h]))
        · rw [if_neg hd]
          exact ⟨fun b => Iff.rfl, Iff.rfl⟩
    · rename_i hm
      split at h
      · rename_i hp
        cases h
        rw [List.isEmpty_iff.1 hp] at hq
        cases q with
        | nil => simp [resolve]
        | cons d q =>
          rw [resolve, resolve, fsGet_set]
          by_cases hd : d = c
          · subst hd
            rw [if_pos rfl, hm]
            cases q with
            | nil => exact absurd rfl hq
            | cons e q => simp [resolve]
          · rw [if_neg hd]
            exact ⟨fun b => Iff.rfl, Iff.rfl⟩
      · cases h

/-- before storing, there is no directory at the path -/
theorem store_not_dir {content : Bytes} : ∀ {p : FsPath} {n n' : FsNode}, n.store content p = .ok n' →
    ∀ es, n.resolve p ≠ .ok (.dir es)
  | [], .file _, n', h, es => by simp [resolve]
  | [], .dir _, n', h, _ => by cases h
  | _ :: _, .file _, n', h, _ => by cases h
  | c :: p, .dir es, n', h, es' => by
    rw [store] at h
    rw [resolve]
    split at h
    · rename_i m hm
      obtain ⟨m', hm', rfl⟩ := map_eq_ok.1 h
      rw [hm]
      exact store_not_dir hm' es'
    · rename_i hm
      rw [hm]
      simp

theorem store_sameExcept {content : Bytes} {p : FsPath} {n n' : FsNode} (h : n.store content p = .ok n') :
    n.SameExcept p n' := by
  intro q
  have hdir : ∀ m : FsNode, m.isDir q = true ↔ ∃ es, m.resolve q = .ok (.dir es) := by
    intro m
    unfold FsNode.isDir
    split
    · rename_i es he; simp [he]
    · rename_i he
      simp only [Bool.false_eq_true, false_iff, not_exists]
      exact fun es h => he es h
  have hcont : ∀ (m : FsNode) b, m.contentAt q = some b ↔ m.resolve q = .ok (.file b) := by
    intro m b
    unfold FsNode.contentAt
    split
    · rename_i b' he; simp [he]
    · rename_i he
      simp only [reduceCtorEq, false_iff]
      exact fun h => he _ h
  constructor
  · rw [Bool.eq_iff_iff, hdir, hdir]
    by_cases hq : q = p
    · subst hq
      rw [resolve_store h]
      constructor
      · rintro ⟨es, he⟩; exact absurd he (store_not_dir h es)
      · rintro ⟨es, he⟩; cases he
    · exact (resolve_store_other h q hq).2.symm
  · intro hq
    ext b
    rw [hcont, hcont]
    exact ((resolve_store_other h q hq).1 b).symm

theorem contentAt_store {content : Bytes} {p : FsPath} {n n' : FsNode} (h : n.store content p = .ok n') :
    n'.contentAt p = some content := by
  unfold FsNode.contentAt
  rw [resolve_store h]

/-- storing again replaces the content -/
theorem store_store {content content' : Bytes} : ∀ {p : FsPath} {n n' : FsNode}, n.store content p = .ok n' →
    n'.store content' p = n.store content' p ∧ ∃ n'', n.store content' p = .ok n''
  | [], .file _, n', h => by cases h; exact ⟨rfl, _, rfl⟩
  | [], .dir _, n', h => by cases h
  | _ :: _, .file _, n', h => by cases h
  | c :: p, .dir es, n', h => by
    rw [store] at h
    split at h
    · rename_i m hm
      obtain ⟨m', hm', rfl⟩ := map_eq_ok.1 h
      obtain ⟨h1, m2, h2⟩ := store_store (content' := content') hm'
      rw [store, store, fsGet_set, if_pos rfl, hm]
      simp only [h1, h2, dictSet_set, Except.map, true_and]
      exact ⟨_, rfl⟩
    · rename_i hm
      split at h
      · rename_i hp
        cases h
        rw [List.isEmpty_iff.1 hp, store, store, fsGet_set, if_pos rfl, hm]
        simp [store, Except.map, dictSet_set]
      · cases h

/-- where a file can be stored: at an existing file, or in an existing directory in which there is no directory of this name -/
theorem store_ok_iff {content : Bytes} : ∀ {p : FsPath} {n : FsNode}, (∃ n', n.store content p = .ok n') ↔
    (∃ b, n.resolve p = .ok (.file b)) ∨ ((∃ d c es, p = d ++ [c] ∧ n.resolve d = .ok (.dir es)) ∧ ∀ es, n.resolve p ≠ .ok (.dir es))
  | [], .file b => by simp [store, resolve]
  | [], .dir es => by simp [store, resolve]
  | c :: p, .file b => by
    simp only [store, resolve, reduceCtorEq, exists_false, false_or, false_iff]
    rintro ⟨⟨d, c', es, hd, h⟩, _⟩
    cases d with
    | nil => cases h
    | cons x d => cases h
  | c :: p, .dir es => by
    rw [store, resolve]
    cases hm : dictGet c es with
    | some m =>
      dsimp only
      have ih := store_ok_iff (content := content) (p := p) (n := m)
      have hl : (∃ n', (m.store content p).map (fun n' => FsNode.dir (dictSet c n' es)) = .ok n') ↔ ∃ n', m.store content p = .ok n' := by
        constructor
        · rintro ⟨n', h⟩; obtain ⟨a, ha, _⟩ := map_eq_ok.1 h; exact ⟨a, ha⟩
        · rintro ⟨n', h⟩; exact ⟨_, map_eq_ok.2 ⟨n', h, rfl⟩⟩
      rw [hl, ih]
      by_cases hp : p = []
      · subst hp
        have : ∀ es', (FsNode.dir es).resolve [] = .ok (.dir es') ↔ es = es' := by simp [resolve]
        constructor
        · rintro (h | ⟨⟨d, c', es', hd, _⟩, _⟩)
          · exact .inl h
          · cases d <;> cases hd
        · rintro (h | ⟨_, h⟩)
          · exact .inl h
          · cases m with
            | file b => exact .inl ⟨b, rfl⟩
            | dir es' => exact absurd rfl (h es')
      · refine or_congr Iff.rfl (and_congr ?_ Iff.rfl)
        constructor
        · rintro ⟨d, c', es', rfl, h⟩
          exact ⟨c :: d, c', es', rfl, by rw [resolve, hm]; exact h⟩
        · rintro ⟨d, c', es', hd, h⟩
          cases d with
          | nil => injection hd with _ hd; exact absurd hd hp
          | cons x d =>
            injection hd with h1 h2
            subst h1
            rw [resolve, hm] at h
            exact ⟨d, c', es', h2, h⟩
    | none =>
      dsimp only
      simp only [reduceCtorEq, exists_const, false_or, ne_eq, not_false_eq_true, implies_true, and_true]
      by_cases hp : p = []
      · subst hp
        simp only [List.isEmpty_nil, if_true, Except.ok.injEq, exists_eq', true_iff]
        exact ⟨[], c, es, rfl, rfl⟩
      · have : p.isEmpty = false := by cases p with
          | nil => exact absurd rfl hp
          | cons x p => rfl
        rw [this]
        simp only [Bool.false_eq_true, if_false, reduceCtorEq, exists_false, false_iff]
        rintro ⟨d, c', es', hd, h⟩
        cases d with
        | nil => injection hd with _ hd; exact hp hd
        | cons x d =>
          injection hd with h1 h2
          subst h1
          rw [resolve, hm] at h
          cases h

/-! ## reading -/

theorem contentAt_eq_some {n : FsNode} {p : FsPath} {b : Bytes} : n.contentAt p = some b ↔ n.resolve p = .ok (.file b) := by
  unfold FsNode.contentAt
  split
  · rename_i b' he; simp [he]
  · rename_i he
    simp only [reduceCtorEq, false_iff]
    exact fun h => he _ h

theorem isDir_eq_true {n : FsNode} {p : FsPath} : n.isDir p = true ↔ ∃ es, n.resolve p = .ok (.dir es) := by
  unfold FsNode.isDir
  split
  · rename_i es he; simp [he]
  · rename_i he
    simp only [Bool.false_eq_true, false_iff, not_exists]
    exact fun es h => he es h

theorem exists_eq {n : FsNode} {p : FsPath} : n.exists p = (n.isDir p || (n.contentAt p).isSome) := by
  unfold FsNode.exists FsNode.isDir FsNode.contentAt
  cases h : n.resolve p with
  | error e => simp
  | ok m => cases m <;> simp

theorem SameExcept.exists {p : FsPath} {a b : FsNode} (h : a.SameExcept p b) {q : FsPath} (hq : q ≠ p) : a.exists q = b.exists q := by
  rw [exists_eq, exists_eq, (h q).1, (h q).2 hq]

theorem sameExcept_refl (p : FsPath) (a : FsNode) : a.SameExcept p a := fun _ => ⟨rfl, fun _ => rfl⟩

theorem SameExcept.trans {p : FsPath} {a b c : FsNode} (h : a.SameExcept p b) (h' : b.SameExcept p c) : a.SameExcept p c :=
  fun q => ⟨(h q).1.trans (h' q).1, fun hq => ((h q).2 hq).trans ((h' q).2 hq)⟩

/-! ## programs -/

theorem seq_of_ok {α β : Type} {prog : FileProg α} {f : α → FileProg β} {w w' : FileWorld} {a : α} (h : prog w = (.ok a, w')) :
    (prog >>= f) w = f a w' := by
  show FileProg.seq prog f w = _
  unfold FileProg.seq
  rw [h]

theorem seq_of_error {α β : Type} {prog : FileProg α} {f : α → FileProg β} {w w' : FileWorld} {e : Exc}
    (h : prog w = (.error e, w')) : (prog >>= f) w = (.error e, w') := by
  show FileProg.seq prog f w = _
  unfold FileProg.seq
  rw [h]

/-- a program that only reads files out of `P` -/
structure OnlyReads {α : Type} (P : FsPath → Prop) (prog : FileProg α) : Prop where
  fs : ∀ w, (prog w).2.fs = w.fs
  log : ∀ w, ∃ l, (prog w).2.log = w.log ++ l ∧ ∀ e ∈ l, ∃ p, P p ∧ e = .opened p
  result : ∀ w w' : FileWorld, w.fs = w'.fs → (prog w).1 = (prog w').1

theorem OnlyReads.seq {α β : Type} {P : FsPath → Prop} {prog : FileProg α} {f : α → FileProg β} (h : OnlyReads P prog)
    (hf : ∀ a, OnlyReads P (f a)) : OnlyReads P (prog >>= f) := by
  have hb : ∀ w, (prog >>= f) w = match prog w with
      | (.ok a, w') => f a w'
      | (.error e, w') => (.error e, w') := fun w => rfl
  refine ⟨fun w => ?_, fun w => ?_, fun w w' hw => ?_⟩
  · have := h.fs w
    rw [hb]
    rcases hp : prog w with ⟨_ | a, w1⟩
    · rw [hp] at this; exact this
    · rw [hp] at this; exact ((hf a).fs w1).trans this
  · obtain ⟨l, hl, hm⟩ := h.log w
    rw [hb]
    rcases hp : prog w with ⟨_ | a, w1⟩
    · rw [hp] at hl; exact ⟨l, hl, hm⟩
    · rw [hp] at hl
      obtain ⟨l', hl', hm'⟩ := (hf a).log w1
      refine ⟨l ++ l', ?_, fun e he => (List.mem_append.1 he).elim (hm e) (hm' e)⟩
      dsimp only at hl ⊢
      rw [hl', hl, List.append_assoc]
  · have hr := h.result w w' hw
    have h1 := h.fs w
    have h2 := h.fs w'
    rw [hb, hb]
    rcases hp : prog w with ⟨r, w1⟩
    rcases hp' : prog w' with ⟨r', w1'⟩
    rw [hp, hp'] at hr
    rw [hp] at h1
    rw [hp'] at h2
    dsimp only at hr h1 h2
    subst hr
    cases r with
    | error e => rfl
    | ok a => exact (hf a).result w1 w1' (by rw [h1, h2, hw])

theorem OnlyReads.lift {α : Type} {P : FsPath → Prop} (r : PyRes α) : OnlyReads P (FileProg.lift r) :=
  ⟨fun _ => rfl, fun w => ⟨[], (List.append_nil _).symm, fun e he => by cases he⟩, fun _ _ _ => rfl⟩

theorem OnlyReads.pure {α : Type} {P : FsPath → Prop} (a : α) : OnlyReads P (Pure.pure a : FileProg α) :=
  ⟨fun _ => rfl, fun w => ⟨[], (List.append_nil _).symm, fun e he => by cases he⟩, fun _ _ _ => rfl⟩

theorem OnlyReads.mono {α : Type} {P Q : FsPath → Prop} {prog : FileProg α} (h : OnlyReads P prog) (hPQ : ∀ p, P p → Q p) :
    OnlyReads Q prog :=
  ⟨h.fs, fun w => by
    obtain ⟨l, hl, hm⟩ := h.log w
    exact ⟨l, hl, fun e he => by obtain ⟨p, hp, he⟩ := hm e he; exact ⟨p, hPQ p hp, he⟩⟩, h.result⟩

theorem readBytes_cases (env : FileEnv) (p : FsPath) (w : FileWorld) :
    (∃ b, w.fs.contentAt p = some b ∧ env.readDenied p = false ∧ FileProg.readBytes env p w = (.ok b, { w with log := w.log ++ [.opened p] })) ∨
    (∃ e, FileProg.readBytes env p w = (.error e, w) ∧ (e = .fileNotFoundError ↔ w.fs.resolve p = .error .fileNotFoundError) ∧
      ¬ (∃ b, w.fs.contentAt p = some b ∧ env.readDenied p = false)) := by
  have hc := @contentAt_eq_some w.fs p
  unfold FileProg.readBytes
  cases h : w.fs.resolve p with
  | error e =>
    refine .inr ⟨e, rfl, by simp, ?_⟩
    rintro ⟨b, hb, _⟩
    rw [hc, h] at hb
    cases hb
  | ok m =>
    cases m with
    | dir es =>
      refine .inr ⟨.other, rfl, by simp, ?_⟩
      rintro ⟨b, hb, _⟩
      rw [hc, h] at hb
      cases hb
    | file b =>
      cases hd : env.readDenied p with
      | false => exact .inl ⟨b, hc.2 h, rfl, by simp⟩
      | true => exact .inr ⟨.other, by simp, by simp, by simp⟩

theorem OnlyReads.readBytes (env : FileEnv) (p : FsPath) : OnlyReads (· = p) (FileProg.readBytes env p) := by
  refine ⟨fun w => ?_, fun w => ?_, fun w w' hw => ?_⟩
  · rcases readBytes_cases env p w with ⟨b, _, _, h⟩ | ⟨e, h, _⟩ <;> rw [h]
  · rcases readBytes_cases env p w with ⟨b, _, _, h⟩ | ⟨e, h, _⟩ <;> rw [h]
    · exact ⟨[.opened p], rfl, fun e he => by rw [List.mem_singleton] at he; exact ⟨p, rfl, he⟩⟩
    · exact ⟨[], (List.append_nil _).symm, fun e he => by cases he⟩
  · unfold FileProg.readBytes
    rw [hw]
    split <;> try rfl
    split <;> rfl

theorem readBytes_ok {env : FileEnv} {p : FsPath} {w : FileWorld} {b : Bytes} :
    (FileProg.readBytes env p w).1 = .ok b ↔ w.fs.contentAt p = some b ∧ env.readDenied p = false := by
  rcases readBytes_cases env p w with ⟨b', h1, h2, h⟩ | ⟨e, h, _, h'⟩ <;> rw [h]
  · rw [h1, h2]; simp
  · simp only [reduceCtorEq, false_iff]
    exact fun h1 => h' ⟨b, h1⟩

/-- the result of one reading program after the other -/
theorem seq_ok {α β : Type} {P : FsPath → Prop} {prog : FileProg α} {f : α → FileProg β} (h : OnlyReads P prog)
    (hf : ∀ a, ∃ Q, OnlyReads Q (f a)) {w : FileWorld} {b : β} :
    ((prog >>= f) w).1 = .ok b ↔ ∃ a, (prog w).1 = .ok a ∧ (f a w).1 = .ok b := by
  have hb : (prog >>= f) w = match prog w with
      | (.ok a, w') => f a w'
      | (.error e, w') => (.error e, w') := rfl
  have hfs := h.fs w
  rw [hb]
  rcases hp : prog w with ⟨r, w1⟩
  rw [hp] at hfs
  cases r with
  | error e => simp
  | ok a =>
    obtain ⟨Q, hQ⟩ := hf a
    simp only [Except.ok.injEq, exists_eq_left']
    rw [hQ.result w1 w hfs]

theorem lift_ok {α : Type} {r : PyRes α} {w : FileWorld} {a : α} : (FileProg.lift r w).1 = .ok a ↔ r = .ok a := Iff.rfl

theorem pure_ok {α : Type} {w : FileWorld} {a b : α} : ((Pure.pure a : FileProg α) w).1 = .ok b ↔ a = b := by
  show (Except.ok a : PyRes α) = .ok b ↔ a = b
  simp

/-! ## writing -/

/-- what `writeBytes` does -/
theorem writeBytes_cases (env : FileEnv) (p : FsPath) (content : Bytes) (w : FileWorld) :
    (∃ e, FileProg.writeBytes env p content w = (.error e, w) ∧
      (env.writeDenied p = true ∨ ∀ fs', w.fs.store content p ≠ .ok fs')) ∨
    (∃ part fs0 fs', part <+: content ∧ env.writeDenied p = false ∧ w.fs.store [] p = .ok fs0 ∧ fs0.store part p = .ok fs' ∧
      w.fs.store part p = .ok fs' ∧
      (part = content ↔ ∀ n, env.space = some n → content.length ≤ n) ∧
      FileProg.writeBytes env p content w =
        (if part = content then .ok () else .error .other, { fs := fs', log := w.log ++ [.truncated p, .wrote p part] })) := by
  unfold FileProg.writeBytes
  by_cases hd : env.writeDenied p = true
  · rw [if_pos hd]
    exact .inl ⟨_, rfl, .inl hd⟩
  rw [if_neg hd]
  cases hs : w.fs.store [] p with
  | error e =>
    refine .inl ⟨e, rfl, .inr fun fs' h => ?_⟩
    obtain ⟨_, n'', h'⟩ := store_store (content' := []) h
    rw [hs] at h'
    cases h'
  | ok fs =>
    dsimp only
    obtain ⟨h1, fs', h2⟩ := store_store (content' := env.fitting content) hs
    rw [h2] at h1
    refine .inr ⟨env.fitting content, fs, fs', ?_, by simpa using hd, rfl, h1, h2, ?_, by rw [h1]⟩
    · unfold FileEnv.fitting
      split
      · exact List.prefix_rfl
      · exact List.take_prefix _ _
    · unfold FileEnv.fitting
      split
      · rename_i h; simp [h]
      · rename_i n h
        simp only [h, Option.some.injEq, forall_eq']
        refine ⟨fun h' => ?_, List.take_of_length_le⟩
        have := congrArg List.length h'
        rw [List.length_take] at this
        omega

end Verif

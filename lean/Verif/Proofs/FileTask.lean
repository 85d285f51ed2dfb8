import Verif.Spec.Parallel
import Verif.Proofs.Files
/-! lemmas about programs that run at the same time -/

namespace Verif
open FsNode

/-! ## what a path shows -/

/-- what an observer sees under a path: an error, a directory or the content of a file -/
def FsNode.look (n : FsNode) (p : FsPath) : PyRes (Option Bytes) :=
  match n.resolve p with
  | .error e => .error e
  | .ok (.file b) => .ok (some b)
  | .ok (.dir _) => .ok none

theorem look_cons_dir (es : List (PyStr × FsNode)) (c : PyStr) (p : FsPath) :
    (FsNode.dir es).look (c :: p) = match dictGet c es with
      | none => .error .fileNotFoundError
      | some n => n.look p := by
  unfold look
  simp only [resolve]
  cases dictGet c es with
  | none => rfl
  | some n => rfl

theorem contentAt_look (n : FsNode) (p : FsPath) : n.contentAt p = match n.look p with | .ok o => o | .error _ => none := by
  unfold contentAt look
  cases n.resolve p with
  | error e => rfl
  | ok m => cases m <;> rfl

theorem exists_look (n : FsNode) (p : FsPath) : n.exists p = match n.look p with | .ok _ => true | .error _ => false := by
  unfold FsNode.exists look
  cases n.resolve p with
  | error e => rfl
  | ok m => cases m <;> rfl

theorem isDir_look (n : FsNode) (p : FsPath) : n.isDir p = match n.look p with | .ok none => true | _ => false := by
  unfold FsNode.isDir look
  cases n.resolve p with
  | error e => rfl
  | ok m => cases m <;> rfl

theorem readFile_look (n : FsNode) (p : FsPath) (denied : Bool) : n.readFile p denied = match n.look p with
    | .error e => .error e
    | .ok none => .error .other
    | .ok (some b) => if denied then .error .other else .ok b := by
  unfold readFile look
  cases n.resolve p with
  | error e => rfl
  | ok m => cases m <;> rfl

theorem look_store_self {c : Bytes} {p : FsPath} {n n' : FsNode} (h : n.store c p = .ok n') : n'.look p = .ok (some c) := by
  unfold look
  rw [resolve_store h]

/-- storing a file does not change what other paths show, unless they lead through the file -/
theorem look_store_other {content : Bytes} : ∀ {p : FsPath} {n n' : FsNode}, n.store content p = .ok n' → ∀ q, ¬ p <+: q →
    n'.look q = n.look q
  | [], _, _, _, q, hq => absurd (List.nil_prefix) hq
  | _ :: _, .file _, _, h, _, _ => by cases h
  | c :: p, .dir es, n', h, q, hq => by
    simp only [store] at h
    cases hd : dictGet c es with
    | none =>
      rw [hd] at h
      by_cases hp : p.isEmpty
      · simp only [hp, if_true] at h
        cases h
        cases q with
        | nil => rfl
        | cons c' q =>
          rw [look_cons_dir, look_cons_dir, fsGet_set]
          by_cases hc : c' = c
          · subst hc
            exfalso
            apply hq
            rw [List.isEmpty_iff.mp hp]
            exact ⟨q, rfl⟩
          · simp [hc]
      · simp [hp] at h
    | some m =>
      rw [hd] at h
      obtain ⟨m', hm', rfl⟩ := map_eq_ok.mp h
      cases q with
      | nil => rfl
      | cons c' q =>
        rw [look_cons_dir, look_cons_dir, fsGet_set]
        by_cases hc : c' = c
        · subst hc
          rw [hd]
          simp only [if_true]
          exact look_store_other hm' q fun hpre => hq (by
            obtain ⟨r, hr⟩ := hpre
            exact ⟨r, by rw [← hr]; rfl⟩)
        · simp [hc]

/-- whatever leads through a stored file shows an error -/
theorem look_store_below {content : Bytes} {p : FsPath} {n n' : FsNode} (h : n.store content p = .ok n') {q : FsPath} (hq : p <+: q)
    (hne : q ≠ p) : n'.look q = .error .other := by
  have hr := resolve_store h
  obtain ⟨r, rfl⟩ := hq
  have hr' : r ≠ [] := fun hr => hne (by simp [hr])
  have key : ∀ (p : FsPath) (n : FsNode), n.resolve p = .ok (.file content) → n.resolve (p ++ r) = .error .other := by
    intro p
    induction p with
    | nil =>
      intro n hn
      simp only [resolve, Except.ok.injEq] at hn
      subst hn
      obtain ⟨c, r', rfl⟩ := List.exists_cons_of_ne_nil hr'
      rfl
    | cons c p ih =>
      intro n hn
      cases n with
      | file b => cases hn
      | dir es =>
        simp only [resolve, List.cons_append] at hn ⊢
        cases hd : dictGet c es with
        | none => rw [hd] at hn; cases hn
        | some m => rw [hd] at hn; exact ih m hn
  unfold look
  rw [key p n' hr]

/-- whether a file can be stored depends on what the path and the paths above show -/
theorem store_congr {content : Bytes} : ∀ {p : FsPath} {n m : FsNode}, (∀ q, q <+: p → n.look q = m.look q) →
    (∃ e, n.store content p = .error e ∧ m.store content p = .error e) ∨
    (∃ n' m', n.store content p = .ok n' ∧ m.store content p = .ok m')
  | [], n, m, h => by
    have h0 := h [] (List.prefix_refl _)
    cases n <;> cases m <;> simp [look, resolve, store] at h0 ⊢
  | c :: p, n, m, h => by
    have h0 := h [] List.nil_prefix
    cases n with
    | file b =>
      cases m with
      | file b' => exact .inl ⟨.other, rfl, rfl⟩
      | dir es' => simp [look, resolve] at h0
    | dir es =>
      cases m with
      | file b' => simp [look, resolve] at h0
      | dir es' =>
        have hc : ∀ q, q <+: p → (FsNode.dir es).look (c :: q) = (FsNode.dir es').look (c :: q) := fun q hq => h (c :: q) (by
          obtain ⟨r, rfl⟩ := hq
          exact ⟨r, rfl⟩)
        simp only [look_cons_dir] at hc
        have hc0 := hc [] List.nil_prefix
        simp only [store]
        cases hd : dictGet c es with
        | none =>
          cases hd' : dictGet c es' with
          | none =>
            by_cases hp : p.isEmpty
            · simp [hp]
            · simp [hp]
          | some m' =>
            rw [hd, hd'] at hc0
            cases m' <;> simp [look, resolve] at hc0
        | some n' =>
          cases hd' : dictGet c es' with
          | none =>
            rw [hd, hd'] at hc0
            cases n' <;> simp [look, resolve] at hc0
          | some m' =>
            rw [hd, hd'] at hc
            rcases store_congr (content := content) (p := p) (n := n') (m := m') hc with ⟨e, h1, h2⟩ | ⟨a, b, h1, h2⟩
            · exact .inl ⟨e, by simp [h1, Except.map], by simp [h2, Except.map]⟩
            · exact .inr ⟨_, _, by simp [h1, Except.map]; rfl, by simp [h2, Except.map]; rfl⟩

theorem dictSet_self {κ α : Type} [DecidableEq κ] {k : κ} {v : α} {d : List (κ × α)} (h : dictGet k d = some v) : dictSet k v d = d := by
  induction d with
  | nil => simp [dictGet] at h
  | cons m d ih =>
    obtain ⟨k', v'⟩ := m
    simp only [dictGet, dictSet] at h ⊢
    by_cases hk : k' = k
    · simp_all
    · simp_all

/-- storing the content that a file has got already changes nothing -/
theorem store_same {content : Bytes} : ∀ {p : FsPath} {n : FsNode}, n.contentAt p = some content → n.store content p = .ok n
  | [], .file b, h => by
    rw [contentAt_eq_some] at h
    simp only [resolve, Except.ok.injEq, FsNode.file.injEq] at h
    rw [h]; rfl
  | [], .dir es, h => by
    rw [contentAt_eq_some] at h
    simp [resolve] at h
  | _ :: _, .file b, h => by
    rw [contentAt_eq_some] at h
    simp [resolve] at h
  | c :: p, .dir es, h => by
    rw [contentAt_eq_some] at h
    simp only [resolve] at h
    simp only [store]
    cases hd : dictGet c es with
    | none => rw [hd] at h; cases h
    | some n =>
      rw [hd] at h
      simp only
      rw [store_same (n := n) (contentAt_eq_some.mpr h)]
      simp only [Except.map, dictSet_self hd]

/-! ## one program on its own -/

/-- the program runs on its own -/
def FileTask.runFs {α : Type} : FileTask α → FsNode → PyRes α × FsNode
  | .done r, fs => (r, fs)
  | .stat p k, fs => (k (fs.exists p) (fs.isDir p)).runFs fs
  | .read p denied k, fs => (k (fs.readFile p denied)).runFs fs
  | .create p denied k, fs => match fs.createFile p denied with
    | .error e => (k (.error e)).runFs fs
    | .ok fs' => (k (.ok ())).runFs fs'
  | .write p written rest k, fs => match fs.store (written ++ rest) p with
    | .error e => (k (.error e)).runFs fs
    | .ok fs' => (k (.ok ())).runFs fs'
  | .say _ k, fs => k.runFs fs

theorem runFs_seq {α β : Type} (t : FileTask α) (f : α → FileTask β) : ∀ fs, (t >>= f).runFs fs = match t.runFs fs with
    | (.ok a, fs') => (f a).runFs fs'
    | (.error e, fs') => (.error e, fs') := by
  show ∀ fs, (t.seq f).runFs fs = _
  induction t with
  | done r =>
    intro fs
    cases r <;> simp [FileTask.seq, FileTask.runFs]
  | stat p k ih => intro fs; simp only [FileTask.seq, FileTask.runFs, ih]
  | read p denied k ih => intro fs; simp only [FileTask.seq, FileTask.runFs, ih]
  | create p denied k ih =>
    intro fs
    simp only [FileTask.seq, FileTask.runFs]
    cases fs.createFile p denied <;> simp only [ih]
  | write p written rest k ih =>
    intro fs
    simp only [FileTask.seq, FileTask.runFs]
    cases fs.store (written ++ rest) p <;> simp only [ih]
  | say good k ih => intro fs; simp only [FileTask.seq, FileTask.runFs, ih]

/-- the sequence of operations does what the program does -/
def Implements {α : Type} (t : FileTask α) (prog : FileProg α) : Prop := ∀ w, t.runFs w.fs = ((prog w).1, (prog w).2.fs)

theorem Implements.seq {α β : Type} {t : FileTask α} {prog : FileProg α} {f : α → FileTask β} {g : α → FileProg β}
    (h : Implements t prog) (hf : ∀ a, Implements (f a) (g a)) : Implements (t >>= f) (prog >>= g) := by
  intro w
  rw [runFs_seq, h w]
  show _ = ((FileProg.seq prog g w).1, (FileProg.seq prog g w).2.fs)
  unfold FileProg.seq
  cases hp : prog w with
  | mk r w' =>
    cases r with
    | error e => rfl
    | ok a => exact hf a w'

theorem Implements.lift {α : Type} (r : PyRes α) : Implements (FileTask.lift r) (FileProg.lift r) := fun _ => rfl

theorem Implements.pure {α : Type} (a : α) : Implements (Pure.pure a : FileTask α) (Pure.pure a : FileProg α) := fun _ => rfl

theorem Implements.readBytes (env : FileEnv) (p : FsPath) : Implements (FileTask.readBytes env p) (FileProg.readBytes env p) := by
  intro w
  unfold FileTask.readBytes FileProg.readBytes
  simp only [FileTask.runFs, readFile]
  cases w.fs.resolve p with
  | error e => rfl
  | ok m =>
    cases m with
    | dir es => rfl
    | file b => cases env.readDenied p <;> rfl

theorem Implements.writeBytes (env : FileEnv) (p : FsPath) (content : Bytes) :
    Implements (FileTask.writeBytes env p content) (FileProg.writeBytes env p content) := by
  intro w
  unfold FileTask.writeBytes FileProg.writeBytes
  simp only [FileTask.runFs, createFile]
  cases env.writeDenied p with
  | true => rfl
  | false =>
    simp only [Bool.false_eq_true, if_false]
    cases w.fs.store [] p with
    | error e => rfl
    | ok fs =>
      simp only [FileTask.runFs, List.nil_append]
      cases fs.store (env.fitting content) p with
      | error e => rfl
      | ok fs' => rfl

/-! ## which paths a program uses -/

/-- all paths that the program uses are in `C`, all files that it writes in `W` -/
inductive Touches {α : Type} (C W : FsPath → Prop) : FileTask α → Prop
  | done (r : PyRes α) : Touches C W (.done r)
  | stat {p : FsPath} {k : Bool → Bool → FileTask α} (hp : C p) (hk : ∀ a b, Touches C W (k a b)) : Touches C W (.stat p k)
  | read {p : FsPath} {denied : Bool} {k : PyRes Bytes → FileTask α} (hp : C p) (hk : ∀ r, Touches C W (k r)) :
      Touches C W (.read p denied k)
  | create {p : FsPath} {denied : Bool} {k : PyRes Unit → FileTask α} (hp : C p) (hw : W p) (hk : ∀ r, Touches C W (k r)) :
      Touches C W (.create p denied k)
  | write {p : FsPath} {written rest : Bytes} {k : PyRes Unit → FileTask α} (hp : C p) (hw : W p) (hk : ∀ r, Touches C W (k r)) :
      Touches C W (.write p written rest k)
  | say {good : Bool} {k : FileTask α} (hk : Touches C W k) : Touches C W (.say good k)

theorem Touches.seq {α β : Type} {C W : FsPath → Prop} {t : FileTask α} {f : α → FileTask β} (h : Touches C W t)
    (hf : ∀ a, Touches C W (f a)) : Touches C W (t >>= f) := by
  show Touches C W (t.seq f)
  induction h with
  | done r =>
    cases r with
    | error e => exact .done _
    | ok a => exact hf a
  | stat hp _ ih => exact .stat hp ih
  | read hp _ ih => exact .read hp ih
  | create hp hw _ ih => exact .create hp hw ih
  | write hp hw _ ih => exact .write hp hw ih
  | say _ ih => exact .say ih

theorem Touches.readBytes {C W : FsPath → Prop} (env : FileEnv) {p : FsPath} (hp : C p) : Touches C W (FileTask.readBytes env p) :=
  .read hp fun r => .done r

theorem Touches.writeBytes {C W : FsPath → Prop} (env : FileEnv) {p : FsPath} (content : Bytes) (hp : C p) (hw : W p) :
    Touches C W (FileTask.writeBytes env p content) :=
  .create hp hw fun r => by
    cases r with
    | error e => exact .done _
    | ok u => exact .write hp hw fun r => by cases r <;> exact .done _

/-- the two file systems show the same under these paths -/
def AgreeOn (C : FsPath → Prop) (a b : FsNode) : Prop := ∀ q, C q → a.look q = b.look q

/-- with a path, also the directories above -/
def PrefixClosed (C : FsPath → Prop) : Prop := ∀ p q, C p → q <+: p → C q

theorem AgreeOn.store {C : FsPath → Prop} (hC : PrefixClosed C) {a b : FsNode} (h : AgreeOn C a b) {p : FsPath} (hp : C p)
    (content : Bytes) :
    (∃ e, a.store content p = .error e ∧ b.store content p = .error e) ∨
    (∃ a' b', a.store content p = .ok a' ∧ b.store content p = .ok b' ∧ AgreeOn C a' b') := by
  rcases store_congr (content := content) (p := p) (n := a) (m := b) (fun q hq => h q (hC p q hp hq)) with he | ⟨a', b', h1, h2⟩
  · exact .inl he
  · refine .inr ⟨a', b', h1, h2, fun q hq => ?_⟩
    by_cases hpq : p <+: q
    · by_cases he : q = p
      · subst he; rw [look_store_self h1, look_store_self h2]
      · rw [look_store_below h1 hpq he, look_store_below h2 hpq he]
    · rw [look_store_other h1 q hpq, look_store_other h2 q hpq, h q hq]

/-- a program behaves in the same way on file systems that show the same under its paths -/
theorem runFs_congr {α : Type} {C W : FsPath → Prop} (hC : PrefixClosed C) {t : FileTask α} (ht : Touches C W t) :
    ∀ {a b : FsNode}, AgreeOn C a b → (t.runFs a).1 = (t.runFs b).1 ∧ AgreeOn C (t.runFs a).2 (t.runFs b).2 := by
  induction ht with
  | done r => intro a b h; exact ⟨rfl, h⟩
  | stat hp _ ih =>
    intro a b h
    simp only [FileTask.runFs]
    rw [exists_look, exists_look, isDir_look, isDir_look, h _ hp]
    exact ih _ _ h
  | read hp _ ih =>
    intro a b h
    simp only [FileTask.runFs]
    rw [readFile_look, readFile_look, h _ hp]
    exact ih _ h
  | @create p denied k hp hw _ ih =>
    intro a b h
    simp only [FileTask.runFs, createFile]
    cases denied with
    | true => exact ih _ h
    | false =>
      simp only [Bool.false_eq_true, if_false]
      rcases h.store hC hp [] with ⟨e, h1, h2⟩ | ⟨a', b', h1, h2, h'⟩
      · rw [h1, h2]; exact ih _ h
      · rw [h1, h2]; exact ih _ h'
  | @write p written rest k hp hw _ ih =>
    intro a b h
    simp only [FileTask.runFs]
    rcases h.store hC hp (written ++ rest) with ⟨e, h1, h2⟩ | ⟨a', b', h1, h2, h'⟩
    · rw [h1, h2]; exact ih _ h
    · rw [h1, h2]; exact ih _ h'
  | say _ ih => intro a b h; exact ih h

/-! ## one operation -/

/-- a file is written only after it has been opened; `cur` is the file that has just been opened or written, and its content -/
inductive OpensFirst {α : Type} : Option (FsPath × Bytes) → FileTask α → Prop
  | done {cur : Option (FsPath × Bytes)} (r : PyRes α) : OpensFirst cur (.done r)
  | stat {cur : Option (FsPath × Bytes)} {p : FsPath} {k : Bool → Bool → FileTask α} (hk : ∀ a b, OpensFirst none (k a b)) :
      OpensFirst cur (.stat p k)
  | read {cur : Option (FsPath × Bytes)} {p : FsPath} {denied : Bool} {k : PyRes Bytes → FileTask α} (hk : ∀ r, OpensFirst none (k r)) :
      OpensFirst cur (.read p denied k)
  | create {cur : Option (FsPath × Bytes)} {p : FsPath} {denied : Bool} {k : PyRes Unit → FileTask α}
      (hk : ∀ e, OpensFirst none (k (.error e))) (hk' : OpensFirst (some (p, [])) (k (.ok ()))) : OpensFirst cur (.create p denied k)
  | write {p : FsPath} {written rest : Bytes} {k : PyRes Unit → FileTask α} (hk : ∀ r, OpensFirst none (k r)) :
      OpensFirst (some (p, written)) (.write p written rest k)
  | say {cur : Option (FsPath × Bytes)} {good : Bool} {k : FileTask α} (hk : OpensFirst none k) : OpensFirst cur (.say good k)

theorem OpensFirst.any {α : Type} {t : FileTask α} (h : OpensFirst none t) (cur : Option (FsPath × Bytes)) : OpensFirst cur t := by
  cases h with
  | done r => exact .done r
  | stat hk => exact .stat hk
  | read hk => exact .read hk
  | create hk hk' => exact .create hk hk'
  | say hk => exact .say hk

theorem OpensFirst.seq {α β : Type} {cur : Option (FsPath × Bytes)} {t : FileTask α} {f : α → FileTask β} (h : OpensFirst cur t)
    (hf : ∀ a, OpensFirst none (f a)) : OpensFirst cur (t >>= f) := by
  show OpensFirst cur (t.seq f)
  induction h with
  | done r =>
    cases r with
    | error e => exact .done _
    | ok a => exact (hf a).any _
  | stat _ ih => exact .stat ih
  | read _ ih => exact .read ih
  | create _ _ ih ih' => exact .create ih ih'
  | write _ ih => exact .write ih
  | say _ ih => exact .say ih

theorem OpensFirst.readBytes (env : FileEnv) (p : FsPath) : OpensFirst none (FileTask.readBytes env p) := .read fun r => .done r

theorem OpensFirst.writeBytes (env : FileEnv) (p : FsPath) (content : Bytes) : OpensFirst none (FileTask.writeBytes env p content) :=
  .create (fun e => .done _) (.write fun r => by cases r <;> exact .done _)

/-- a program in the course of writing finds in the file what it has written so far -/
def Proper {α : Type} (C : FsPath → Prop) (fs : FsNode) (t : FileTask α) : Prop :=
  ∃ cur, OpensFirst cur t ∧ ∀ p c, cur = some (p, c) → C p ∧ fs.contentAt p = some c

theorem Proper.other {α : Type} {C : FsPath → Prop} {fs fs' : FsNode} {t : FileTask α} (h : Proper C fs t) (ha : AgreeOn C fs' fs) :
    Proper C fs' t := by
  obtain ⟨cur, h1, h2⟩ := h
  refine ⟨cur, h1, fun p c hc => ⟨(h2 p c hc).1, ?_⟩⟩
  rw [contentAt_look, ha p (h2 p c hc).1, ← contentAt_look]
  exact (h2 p c hc).2

theorem store_of_content {content content' : Bytes} {p : FsPath} {n : FsNode} (h : n.contentAt p = some content) :
    ∃ n', n.store content' p = .ok n' :=
  (store_store (store_same h)).2

theorem overwrite_end (w part : Bytes) : overwrite w w.length part = w ++ part := by
  unfold overwrite
  rw [Nat.sub_self, List.replicate_zero, List.append_nil, List.take_length, List.drop_of_length_le (by omega), List.append_nil]

theorem writeAt_eq {fs : FsNode} {p : FsPath} {w : Bytes} (h : fs.contentAt p = some w) (part : Bytes) :
    fs.writeAt p w.length part = fs.store (w ++ part) p := by
  unfold writeAt
  rw [contentAt_eq_some.mp h]
  simp only [overwrite_end]

theorem proper_of_none {α : Type} {C : FsPath → Prop} {fs : FsNode} {t : FileTask α} (h : OpensFirst none t) : Proper C fs t :=
  ⟨none, h, fun _ _ h => by cases h⟩

/-- an operation leads to a program that ends in the same way -/
theorem taskStep_spec {α : Type} {C W : FsPath → Prop} {t t' : FileTask α} {fs fs' : FsNode} (h : TaskStep t fs t' fs')
    (ht : Touches C W t) (hp : Proper C fs t) :
    Touches C W t' ∧ Proper C fs' t' ∧ t'.runFs fs' = t.runFs fs ∧ ∀ q, (∀ p, W p → ¬ p <+: q) → fs'.look q = fs.look q := by
  obtain ⟨cur, ho, hc⟩ := hp
  cases h with
  | stat p k =>
    cases ht with | stat hp hk =>
    cases ho with | stat ho =>
    exact ⟨hk _ _, proper_of_none (ho _ _), rfl, fun _ _ => rfl⟩
  | read p denied k =>
    cases ht with | read hp hk =>
    cases ho with | read ho =>
    exact ⟨hk _, proper_of_none (ho _), rfl, fun _ _ => rfl⟩
  | created p denied k _ _ hs =>
    cases ht with | create hp hw hk =>
    cases ho with | create ho ho' =>
    have hs' : fs.store [] p = .ok fs' := by
      unfold createFile at hs
      split at hs
      · cases hs
      · exact hs
    refine ⟨hk _, ⟨_, ho', fun p' c' he => ?_⟩, ?_, fun q hq => look_store_other hs' q (hq p hw)⟩
    · cases he
      exact ⟨hp, contentAt_store hs'⟩
    · simp only [FileTask.runFs, hs]
  | notCreated p denied k _ e hs =>
    cases ht with | create hp hw hk =>
    cases ho with | create ho ho' =>
    exact ⟨hk _, proper_of_none (ho _), by simp only [FileTask.runFs, hs], fun _ _ => rfl⟩
  | written p w part rest k _ _ hpart hs =>
    cases ht with | write hp hw hk =>
    cases ho with | write ho =>
    rw [writeAt_eq (hc p w rfl).2] at hs
    refine ⟨.write hp hw hk, ⟨_, .write ho, fun p' c' he => ?_⟩, ?_, fun q hq => look_store_other hs q (hq p hw)⟩
    · cases he
      exact ⟨hp, contentAt_store hs⟩
    · simp only [FileTask.runFs]
      obtain ⟨h1, n'', h2⟩ := store_store (content' := w ++ part ++ rest) hs
      rw [h1, ← List.append_assoc, h2]
  | notWritten p w part rest k _ e hpart hs =>
    cases ho with | write ho =>
    obtain ⟨n', hn'⟩ := store_of_content (content' := w ++ part) (hc p w rfl).2
    rw [writeAt_eq (hc p w rfl).2, hn'] at hs
    cases hs
  | closed p w k _ =>
    cases ht with | write hp hw hk =>
    cases ho with | write ho =>
    refine ⟨hk _, proper_of_none (ho _), ?_, fun _ _ => rfl⟩
    simp only [FileTask.runFs, List.append_nil]
    rw [store_same (hc p w rfl).2]
  | say good k =>
    cases ht with | say hk =>
    cases ho with | say ho =>
    exact ⟨hk, proper_of_none ho, rfl, fun _ _ => rfl⟩

/-- a program that has not ended can make an operation -/
theorem taskStep_progress {α : Type} (t : FileTask α) (fs : FsNode) : (∃ r, t = .done r) ∨ ∃ t' fs', TaskStep t fs t' fs' := by
  cases t with
  | done r => exact .inl ⟨r, rfl⟩
  | stat p k => exact .inr ⟨_, _, .stat p k fs⟩
  | read p denied k => exact .inr ⟨_, _, .read p denied k fs⟩
  | create p denied k =>
    cases h : fs.createFile p denied with
    | error e => exact .inr ⟨_, _, .notCreated p denied k fs e h⟩
    | ok fs' => exact .inr ⟨_, _, .created p denied k fs fs' h⟩
  | write p w rest k =>
    cases rest with
    | nil => exact .inr ⟨_, _, .closed p w k fs⟩
    | cons b rest =>
      have hb : (b :: rest) = [b] ++ rest := rfl
      rw [hb]
      cases h : fs.writeAt p w.length [b] with
      | error e => exact .inr ⟨_, _, .notWritten p w [b] rest k fs e (by simp) h⟩
      | ok fs' => exact .inr ⟨_, _, .written p w [b] rest k fs fs' (by simp) h⟩
  | say good k => exact .inr ⟨_, _, .say good k fs⟩

/-! ## all programs end -/

/-- one operation, whatever the file system is -/
def TaskNext {α : Type} (t' t : FileTask α) : Prop := ∃ fs fs', TaskStep t fs t' fs'

theorem taskNext_acc {α : Type} (t : FileTask α) : Acc TaskNext t := by
  induction t with
  | done r => exact ⟨_, fun t' ⟨fs, fs', h⟩ => by cases h⟩
  | stat p k ih => exact ⟨_, fun t' ⟨fs, fs', h⟩ => by cases h; exact ih _ _⟩
  | read p denied k ih => exact ⟨_, fun t' ⟨fs, fs', h⟩ => by cases h; exact ih _⟩
  | create p denied k ih => exact ⟨_, fun t' ⟨fs, fs', h⟩ => by cases h <;> exact ih _⟩
  | write p w rest k ih =>
    have key : ∀ (n : Nat) (w rest : Bytes), rest.length ≤ n → Acc TaskNext (FileTask.write p w rest k) := by
      intro n
      induction n with
      | zero =>
        intro w rest hn
        refine ⟨_, fun t' ⟨fs, fs', h⟩ => ?_⟩
        cases h with
        | written _ _ part rest' _ _ _ hp _ =>
          exfalso
          apply hp
          rw [List.length_append] at hn
          exact List.eq_nil_of_length_eq_zero (by omega)
        | notWritten => exact ih _
        | closed => exact ih _
      | succ n ihn =>
        intro w rest hn
        refine ⟨_, fun t' ⟨fs, fs', h⟩ => ?_⟩
        cases h with
        | written _ _ part rest' _ _ _ hp _ =>
          apply ihn
          rw [List.length_append] at hn
          have : 0 < part.length := List.length_pos_iff.mpr hp
          omega
        | notWritten => exact ih _
        | closed => exact ih _
    exact key _ w rest (Nat.le_refl _)
  | say good k ih => exact ⟨_, fun t' ⟨fs, fs', h⟩ => by cases h; exact ih⟩

/-- an operation of one of the programs -/
def ListNext {α : Type} (ts' ts : List (FileTask α)) : Prop := ∃ i t t', ts[i]? = some t ∧ TaskNext t' t ∧ ts' = ts.set i t'

theorem listNext_acc {α : Type} (ts : List (FileTask α)) : Acc ListNext ts := by
  induction ts with
  | nil => exact ⟨_, fun ts' ⟨i, t, t', h, _⟩ => by simp at h⟩
  | cons t ts ih =>
    have ht := taskNext_acc t
    induction ht generalizing ts with
    | intro t _ iht =>
      induction ih with
      | intro ts hts ihts =>
        refine ⟨_, fun ts' ⟨i, u, u', h, hn, he⟩ => ?_⟩
        cases i with
        | zero =>
          simp only [List.getElem?_cons_zero, Option.some.injEq] at h
          subst h
          rw [he, List.set_cons_zero]
          exact iht u' hn ts ⟨_, hts⟩
        | succ i =>
          rw [List.getElem?_cons_succ] at h
          rw [he, List.set_cons_succ]
          exact ihts _ ⟨i, u, u', h, hn, rfl⟩

/-! ## how far the output has been written -/

/-- the program writes nothing -/
inductive ReadsOnly {α : Type} : FileTask α → Prop
  | done (r : PyRes α) : ReadsOnly (.done r)
  | stat {p : FsPath} {k : Bool → Bool → FileTask α} (hk : ∀ a b, ReadsOnly (k a b)) : ReadsOnly (.stat p k)
  | read {p : FsPath} {denied : Bool} {k : PyRes Bytes → FileTask α} (hk : ∀ r, ReadsOnly (k r)) : ReadsOnly (.read p denied k)
  | say {good : Bool} {k : FileTask α} (hk : ReadsOnly k) : ReadsOnly (.say good k)

/-- the program writes at most one file -/
inductive WritesOnce {α : Type} : FileTask α → Prop
  | done (r : PyRes α) : WritesOnce (.done r)
  | stat {p : FsPath} {k : Bool → Bool → FileTask α} (hk : ∀ a b, WritesOnce (k a b)) : WritesOnce (.stat p k)
  | read {p : FsPath} {denied : Bool} {k : PyRes Bytes → FileTask α} (hk : ∀ r, WritesOnce (k r)) : WritesOnce (.read p denied k)
  | create {p : FsPath} {denied : Bool} {k : PyRes Unit → FileTask α} {content : Bytes} {k' : PyRes Unit → FileTask α}
      (hk : ∀ e, ReadsOnly (k (.error e))) (he : k (.ok ()) = .write p [] content k') (hk' : ∀ r, ReadsOnly (k' r)) :
      WritesOnce (.create p denied k)
  | say {good : Bool} {k : FileTask α} (hk : WritesOnce k) : WritesOnce (.say good k)

theorem ReadsOnly.once {α : Type} {t : FileTask α} (h : ReadsOnly t) : WritesOnce t := by
  induction h with
  | done r => exact .done r
  | stat _ ih => exact .stat ih
  | read _ ih => exact .read ih
  | say _ ih => exact .say ih

theorem ReadsOnly.seq {α β : Type} {t : FileTask α} {f : α → FileTask β} (h : ReadsOnly t) (hf : ∀ a, ReadsOnly (f a)) :
    ReadsOnly (t >>= f) := by
  show ReadsOnly (t.seq f)
  induction h with
  | done r =>
    cases r with
    | error e => exact .done _
    | ok a => exact hf a
  | stat _ ih => exact .stat ih
  | read _ ih => exact .read ih
  | say _ ih => exact .say ih

/-- reading, then a program that writes at most one file -/
theorem ReadsOnly.seqOnce {α β : Type} {t : FileTask α} {f : α → FileTask β} (h : ReadsOnly t) (hf : ∀ a, WritesOnce (f a)) :
    WritesOnce (t >>= f) := by
  show WritesOnce (t.seq f)
  induction h with
  | done r =>
    cases r with
    | error e => exact .done _
    | ok a => exact hf a
  | stat _ ih => exact .stat ih
  | read _ ih => exact .read ih
  | say _ ih => exact .say ih

/-- a program that writes at most one file, then reading -/
theorem WritesOnce.seqReads {α β : Type} {t : FileTask α} {f : α → FileTask β} (h : WritesOnce t) (hf : ∀ a, ReadsOnly (f a)) :
    WritesOnce (t >>= f) := by
  show WritesOnce (t.seq f)
  induction h with
  | done r =>
    cases r with
    | error e => exact .done _
    | ok a => exact (hf a).once
  | stat _ ih => exact .stat ih
  | read _ ih => exact .read ih
  | create hk he hk' =>
    refine .create (fun e => ReadsOnly.seq (hk e) hf) (by simp only [he, FileTask.seq]; rfl) fun r => ReadsOnly.seq (hk' r) hf
  | say _ ih => exact .say ih

theorem WritesOnce.writeBytes (env : FileEnv) (p : FsPath) (content : Bytes) : WritesOnce (FileTask.writeBytes env p content) :=
  .create (fun _ => .done _) rfl fun r => by cases r <;> exact .done _

theorem ReadsOnly.runFs {α : Type} {t : FileTask α} (h : ReadsOnly t) : ∀ fs, (t.runFs fs).2 = fs := by
  induction h with
  | done r => exact fun _ => rfl
  | stat _ ih => exact fun _ => ih _ _ _
  | read _ ih => exact fun _ => ih _ _
  | say _ ih => exact fun _ => ih _

/-- how far the output has been written -/
inductive Phase {α : Type} (fs fs' : FsNode) (p : FsPath) (t : FileTask α) : Prop
  | before (h : WritesOnce t) (hc : fs'.contentAt p = fs.contentAt p)
  | during (written rest : Bytes) (k : PyRes Unit → FileTask α) (ht : t = .write p written rest k) (hk : ∀ r, ReadsOnly (k r))
      (hc : fs'.contentAt p = some written)
  | after (h : ReadsOnly t) (content : Bytes) (hc : fs'.contentAt p = some content)

theorem phase_step {α : Type} {C W : FsPath → Prop} {t t' : FileTask α} {fs fs1 fs2 : FsNode} {p : FsPath} (h : TaskStep t fs1 t' fs2)
    (ht : Touches C W t) (hw : ∀ q, W q → q = p) (hp : Phase fs fs1 p t) : Phase fs fs2 p t' := by
  cases hp with
  | before ho hc =>
    cases h with
    | stat => cases ho with | stat ho => exact .before (ho _ _) hc
    | read => cases ho with | read ho => exact .before (ho _) hc
    | created q denied k _ _ hs =>
      cases ht with | create _ hq _ =>
      cases ho with | @create _ _ _ content k' ho he ho' =>
      have := hw q hq
      subst this
      have hs' : fs1.store [] q = .ok fs2 := by
        unfold createFile at hs
        split at hs
        · cases hs
        · exact hs
      exact .during [] content k' he ho' (contentAt_store hs')
    | notCreated => cases ho with | create ho he ho' => exact .before (ho _).once hc
    | written => cases ho
    | notWritten => cases ho
    | closed => cases ho
    | say => cases ho with | say ho => exact .before ho hc
  | during w rest k he hk hc =>
    subst he
    cases h with
    | written _ _ part rest' _ _ _ _ hs =>
      rw [writeAt_eq hc] at hs
      exact .during (w ++ part) rest' k rfl hk (contentAt_store hs)
    | notWritten => exact .after (hk _) w hc
    | closed => exact .after (hk _) w hc
  | after ho c hc =>
    cases h with
    | stat => cases ho with | stat ho => exact .after (ho _ _) c hc
    | read => cases ho with | read ho => exact .after (ho _) c hc
    | created => cases ho
    | notCreated => cases ho
    | written => cases ho
    | notWritten => cases ho
    | closed => cases ho
    | say => cases ho with | say ho => exact .after ho c hc

/-- what the output contains: what it contained before, or a first part of what it will contain -/
theorem Phase.content {α : Type} {fs fs' : FsNode} {p : FsPath} {t : FileTask α} (h : Phase fs fs' p t) :
    fs'.contentAt p = fs.contentAt p ∨
      ∃ a b, fs'.contentAt p = some a ∧ (t.runFs fs').2.contentAt p = some b ∧ a <+: b := by
  cases h with
  | before _ hc => exact .inl hc
  | during w rest k he hk hc =>
    subst he
    obtain ⟨n', hn'⟩ := store_of_content (content' := w ++ rest) hc
    refine .inr ⟨w, w ++ rest, hc, ?_, List.prefix_append _ _⟩
    simp only [FileTask.runFs, hn']
    rw [(hk _).runFs]
    exact contentAt_store hn'
  | after ho c hc => exact .inr ⟨c, c, hc, by rw [ho.runFs]; exact hc, List.prefix_refl _⟩

/-! ## programs at the same time -/

/-- a program with the paths that it uses and the files that it writes -/
structure Job (α : Type) where
  uses : FsPath → Prop
  writes : FsPath → Prop
  task : FileTask α

/-- what holds for a program at any time: it will end, if it is alone from now on, in the same way as if it had always been alone -/
structure JobInv {α : Type} (fs : FsNode) (j : Job α) (fs' : FsNode) (t : FileTask α) : Prop where
  touches : Touches j.uses j.writes t
  proper : Proper j.uses fs' t
  result : (t.runFs fs').1 = (j.task.runFs fs).1
  agree : AgreeOn j.uses (t.runFs fs').2 (j.task.runFs fs).2
  phase : ∀ p, j.writes p → Phase fs fs' p t

theorem parallel_inv {α : Type} {jobs : List (Job α)} {fs : FsNode} {s : FsNode × List (FileTask α)}
    (hclosed : ∀ j ∈ jobs, PrefixClosed j.uses) (htouch : ∀ j ∈ jobs, Touches j.uses j.writes j.task)
    (hopen : ∀ j ∈ jobs, OpensFirst none j.task) (honce : ∀ j ∈ jobs, WritesOnce j.task)
    (hone : ∀ j ∈ jobs, ∀ p q, j.writes p → j.writes q → p = q) (huse : ∀ j ∈ jobs, ∀ p, j.writes p → j.uses p)
    (hsep : ∀ (i k : Nat) (a b : Job α), i ≠ k → jobs[i]? = some a → jobs[k]? = some b →
      ∀ q p, a.writes q → b.uses p → ¬ q <+: p)
    (h : ParallelRun (fs, jobs.map Job.task) s) :
    s.2.length = jobs.length ∧
    (∀ (i : Nat) (j : Job α) (t : FileTask α), jobs[i]? = some j → s.2[i]? = some t → JobInv fs j s.1 t) ∧
    ∀ q, (∀ j ∈ jobs, ∀ p, j.writes p → ¬ p <+: q) → s.1.look q = fs.look q := by
  generalize hs : (fs, jobs.map Job.task) = s0 at h
  induction h with
  | refl =>
    subst hs
    refine ⟨by simp, fun i j t hj ht => ?_, fun _ _ => rfl⟩
    have hm : j ∈ jobs := List.mem_of_getElem? hj
    simp only [List.getElem?_map, hj, Option.map_some, Option.some.injEq] at ht
    subst ht
    exact ⟨htouch j hm, proper_of_none (hopen j hm), rfl, fun _ _ => rfl, fun _ _ => .before (honce j hm) rfl⟩
  | @step s1 s2 hrun hstep ih =>
    obtain ⟨hlen, hinv, hframe⟩ := ih
    cases hstep with
    | @mk fs1 fs2 ts k u u' hu hst =>
      have hk : k < ts.length := (List.getElem?_eq_some_iff.mp hu).1
      simp only at hlen
      have hk' : k < jobs.length := by omega
      have hjk : jobs[k]? = some jobs[k] := List.getElem?_eq_getElem hk'
      have hIk := hinv k _ u hjk hu
      obtain ⟨h1, h2, h3, h4⟩ := taskStep_spec hst hIk.touches hIk.proper
      refine ⟨by simpa using hlen, fun i j t hj ht => ?_, fun q hq => ?_⟩
      · simp only at ht ⊢
        by_cases hik : k = i
        · subst hik
          rw [hjk] at hj
          cases hj
          rw [List.getElem?_set_self hk] at ht
          cases ht
          exact ⟨h1, h2, by rw [h3]; exact hIk.result, by rw [h3]; exact hIk.agree, fun p hp =>
            phase_step hst hIk.touches (fun q hq => hone _ (List.getElem_mem hk') q p hq hp) (hIk.phase p hp)⟩
        · rw [List.getElem?_set_ne hik] at ht
          have hI := hinv i j t hj ht
          have ha : AgreeOn j.uses fs2 fs1 := fun q hq => h4 q fun p hp => hsep k i _ j hik hjk hj p q hp hq
          obtain ⟨r1, r2⟩ := runFs_congr (hclosed j (List.mem_of_getElem? hj)) hI.touches ha
          refine ⟨hI.touches, hI.proper.other ha, r1.trans hI.result, fun q hq => (r2 q hq).trans (hI.agree q hq), fun p hp => ?_⟩
          have hc : fs2.contentAt p = fs1.contentAt p := by
            rw [contentAt_look, contentAt_look, ha p (huse j (List.mem_of_getElem? hj) p hp)]
          cases hI.phase p hp with
          | before h1 h2 => exact .before h1 (hc.trans h2)
          | during w rest k h1 h2 h3 => exact .during w rest k h1 h2 (hc.trans h3)
          | after h1 c h2 => exact .after h1 c (hc.trans h2)
      · simp only
        rw [h4 q fun p hp => hq _ (List.getElem_mem hk') p hp]
        exact hframe q hq

/-- nothing but the files that the programs write is changed -/
theorem taskStep_frame {α : Type} {C W : FsPath → Prop} {t t' : FileTask α} {fs fs' : FsNode} (h : TaskStep t fs t' fs')
    (ht : Touches C W t) : Touches C W t' ∧ ∀ q, (fs'.isDir q = fs.isDir q) ∧ (¬ W q → fs'.contentAt q = fs.contentAt q) := by
  have key : ∀ {p : FsPath} {c : Bytes}, W p → fs.store c p = .ok fs' →
      ∀ q, (fs'.isDir q = fs.isDir q) ∧ (¬ W q → fs'.contentAt q = fs.contentAt q) := fun {p c} hw hs q =>
    ⟨((store_sameExcept hs q).1).symm, fun hq => ((store_sameExcept hs q).2 fun he => hq (he ▸ hw)).symm⟩
  cases h with
  | stat => cases ht with | stat _ hk => exact ⟨hk _ _, fun _ => ⟨rfl, fun _ => rfl⟩⟩
  | read => cases ht with | read _ hk => exact ⟨hk _, fun _ => ⟨rfl, fun _ => rfl⟩⟩
  | created p denied k _ _ hs =>
    cases ht with | create _ hw hk =>
    unfold createFile at hs
    split at hs
    · cases hs
    · exact ⟨hk _, key hw hs⟩
  | notCreated => cases ht with | create _ _ hk => exact ⟨hk _, fun _ => ⟨rfl, fun _ => rfl⟩⟩
  | written p w part rest k _ _ _ hs =>
    cases ht with | write hp hw hk =>
    unfold writeAt at hs
    split at hs
    · exact ⟨.write hp hw hk, key hw hs⟩
    · cases hs
    · cases hs
  | notWritten => cases ht with | write _ _ hk => exact ⟨hk _, fun _ => ⟨rfl, fun _ => rfl⟩⟩
  | closed => cases ht with | write _ _ hk => exact ⟨hk _, fun _ => ⟨rfl, fun _ => rfl⟩⟩
  | say => cases ht with | say hk => exact ⟨hk, fun _ => ⟨rfl, fun _ => rfl⟩⟩

theorem parallel_frame {α : Type} {C W : FsPath → Prop} {s s' : FsNode × List (FileTask α)} (h : ParallelRun s s')
    (ht : ∀ t ∈ s.2, Touches C W t) : (∀ t ∈ s'.2, Touches C W t) ∧
      ∀ q, (s'.1.isDir q = s.1.isDir q) ∧ (¬ W q → s'.1.contentAt q = s.1.contentAt q) := by
  induction h with
  | refl => exact ⟨ht, fun _ => ⟨rfl, fun _ => rfl⟩⟩
  | @step s1 s2 _ hstep ih =>
    obtain ⟨h1, h2⟩ := ih
    cases hstep with
    | @mk fs1 fs2 ts i t t' hi hst =>
      obtain ⟨h3, h4⟩ := taskStep_frame hst (h1 t (List.mem_of_getElem? hi))
      refine ⟨fun u hu => ?_, fun q => ⟨(h4 q).1.trans (h2 q).1, fun hq => ((h4 q).2 hq).trans ((h2 q).2 hq)⟩⟩
      rcases List.mem_or_eq_of_mem_set hu with hu | rfl
      · exact h1 u hu
      · exact h3

theorem Touches.mono {α : Type} {C W C' W' : FsPath → Prop} {t : FileTask α} (h : Touches C W t) (hC : ∀ p, C p → C' p)
    (hW : ∀ p, W p → W' p) : Touches C' W' t := by
  induction h with
  | done r => exact .done r
  | stat hp _ ih => exact .stat (hC _ hp) ih
  | read hp _ ih => exact .read (hC _ hp) ih
  | create hp hw _ ih => exact .create (hC _ hp) (hW _ hw) ih
  | write hp hw _ ih => exact .write (hC _ hp) (hW _ hw) ih
  | say _ ih => exact .say ih

theorem ParallelRun.trans {α : Type} {a b c : FsNode × List (FileTask α)} (h : ParallelRun a b) (h' : ParallelRun b c) : ParallelRun a c := by
  induction h' with
  | refl => exact h
  | step _ hs ih => exact .step ih hs

/-- from everywhere all programs can come to their ends -/
theorem parallel_all_end {α : Type} (ts : List (FileTask α)) : ∀ fs : FsNode, ∃ fs' ts', ParallelRun (fs, ts) (fs', ts') ∧
    ts'.length = ts.length ∧ ∀ t ∈ ts', ∃ r, t = .done r := by
  induction listNext_acc ts with
  | intro ts _ ih =>
    intro fs
    by_cases hall : ∀ t ∈ ts, ∃ r, t = .done r
    · exact ⟨fs, ts, .refl _, rfl, hall⟩
    · have hex : ∃ t ∈ ts, ¬ ∃ r, t = .done r := by
        apply Classical.byContradiction
        intro hno
        exact hall fun t ht => Classical.byContradiction fun hr => hno ⟨t, ht, hr⟩
      obtain ⟨t, ht, hnd⟩ := hex
      obtain ⟨i, hi⟩ := List.mem_iff_getElem?.mp ht
      rcases taskStep_progress t fs with hd | ⟨t', fs1, hs⟩
      · exact absurd hd hnd
      · obtain ⟨fs', ts', h1, h2, h3⟩ := ih (ts.set i t') ⟨i, t, t', hi, ⟨_, _, hs⟩, rfl⟩ fs1
        exact ⟨fs', ts', (ParallelRun.step (.refl _) (.mk hi hs)).trans h1, by simpa using h2, h3⟩

/-- some operations of one program, without operations of others -/
inductive TaskSteps {α : Type} : FileTask α → FsNode → FileTask α → FsNode → Prop
  | refl (t : FileTask α) (fs : FsNode) : TaskSteps t fs t fs
  | step {t t' t'' : FileTask α} {fs fs' fs'' : FsNode} (h : TaskStep t fs t' fs') (h' : TaskSteps t' fs' t'' fs'') :
      TaskSteps t fs t'' fs''

theorem TaskSteps.parallel {α : Type} {t t' : FileTask α} {fs fs' : FsNode} (h : TaskSteps t fs t' fs') :
    ∀ {ts : List (FileTask α)} {i : Nat}, ts[i]? = some t → ParallelRun (fs, ts) (fs', ts.set i t') := by
  induction h with
  | refl t fs =>
    intro ts i hi
    obtain ⟨hlt, rfl⟩ := List.getElem?_eq_some_iff.mp hi
    rw [List.set_getElem_self]
    exact .refl _
  | @step t t1 t2 fs fs1 fs2 h _ ih =>
    intro ts i hi
    have hlt := (List.getElem?_eq_some_iff.mp hi).1
    have h2 := ih (ts := ts.set i t1) (i := i) (List.getElem?_set_self hlt)
    rw [List.set_set] at h2
    exact (ParallelRun.step (.refl _) (.mk hi h)).trans h2

/-- a program that changes something comes to the point at which the file has been emptied -/
theorem once_reaches {α : Type} {C W : FsPath → Prop} {t : FileTask α} (h : WritesOnce t) (ht : Touches C W t) : ∀ fs, (t.runFs fs).2 = fs ∨
    ∃ p content k fs', TaskSteps t fs (.write p [] content k) fs' ∧ fs.store [] p = .ok fs' ∧ W p := by
  induction h with
  | done r => exact fun _ => .inl rfl
  | @stat p k _ ih =>
    intro fs
    cases ht with | stat _ ht =>
    rcases ih (fs.exists p) (fs.isDir p) (ht _ _) fs with h | ⟨q, c, k', fs', h1, h2⟩
    · exact .inl h
    · exact .inr ⟨q, c, k', fs', .step (.stat p k fs) h1, h2⟩
  | @read p denied k _ ih =>
    intro fs
    cases ht with | read _ ht =>
    rcases ih (fs.readFile p denied) (ht _) fs with h | ⟨q, c, k', fs', h1, h2⟩
    · exact .inl h
    · exact .inr ⟨q, c, k', fs', .step (.read p denied k fs) h1, h2⟩
  | @create p denied k content k' hk he hk' =>
    intro fs
    cases ht with | create _ hw _ =>
    cases hs : fs.createFile p denied with
    | error e =>
      refine .inl ?_
      simp only [FileTask.runFs, hs]
      exact (hk e).runFs fs
    | ok fs' =>
      have hs' : fs.store [] p = .ok fs' := by
        unfold createFile at hs
        split at hs
        · cases hs
        · exact hs
      exact .inr ⟨p, content, k', fs', .step (.created p denied k fs fs' hs) (by rw [he]; exact .refl _ _), hs', hw⟩
  | @say good k _ ih =>
    intro fs
    cases ht with | say ht =>
    rcases ih ht fs with h | ⟨q, c, k', fs', h1, h2⟩
    · exact .inl h
    · exact .inr ⟨q, c, k', fs', .step (.say good k fs) h1, h2⟩

/-- a program that only reads comes to its end -/
theorem ReadsOnly.toEnd {α : Type} {t : FileTask α} (h : ReadsOnly t) : ∀ fs, TaskSteps t fs (.done (t.runFs fs).1) fs := by
  induction h with
  | done r => exact fun fs => .refl _ _
  | stat _ ih => exact fun fs => .step (.stat _ _ fs) (ih _ _ fs)
  | read _ ih => exact fun fs => .step (.read _ _ _ fs) (ih _ fs)
  | say _ ih => exact fun fs => .step (.say _ _ fs) (ih fs)

theorem TaskSteps.trans {α : Type} {t t' t'' : FileTask α} {fs fs' fs'' : FsNode} (h : TaskSteps t fs t' fs')
    (h' : TaskSteps t' fs' t'' fs'') : TaskSteps t fs t'' fs'' := by
  induction h with
  | refl => exact h'
  | step hs _ ih => exact .step hs (ih h')

/-- a program on its own comes to its end -/
theorem WritesOnce.toEnd {α : Type} {t : FileTask α} (h : WritesOnce t) : ∀ fs, TaskSteps t fs (.done (t.runFs fs).1) (t.runFs fs).2 := by
  induction h with
  | done r => exact fun fs => .refl _ _
  | stat _ ih => exact fun fs => .step (.stat _ _ fs) (ih _ _ fs)
  | read _ ih => exact fun fs => .step (.read _ _ _ fs) (ih _ fs)
  | @create p denied k content k' hk he hk' =>
    intro fs
    simp only [FileTask.runFs]
    cases hs : fs.createFile p denied with
    | error e =>
      simp only
      refine .step (.notCreated p denied k fs e hs) ?_
      rw [(hk e).runFs]
      exact (hk e).toEnd fs
    | ok fs1 =>
      have hs' : fs.store [] p = .ok fs1 := by
        unfold createFile at hs
        split at hs
        · cases hs
        · exact hs
      simp only
      refine .step (.created p denied k fs fs1 hs) ?_
      rw [he]
      have hc := contentAt_store hs'
      obtain ⟨fs2, hs2⟩ := store_of_content (content' := content) hc
      simp only [FileTask.runFs, List.nil_append, hs2]
      have hend : TaskSteps (k' (.ok ())) fs2 (.done ((k' (.ok ())).runFs fs2).1) ((k' (.ok ())).runFs fs2).2 := by
        have h := (hk' (.ok ())).toEnd fs2
        rw [(hk' (.ok ())).runFs]
        exact h
      cases content with
      | nil =>
        rw [store_same hc] at hs2
        cases hs2
        exact .step (.closed p [] k' _) hend
      | cons b rest =>
        have h1 : TaskStep (.write p [] (b :: rest) k') fs1 (.write p ([] ++ (b :: rest)) [] k') fs2 := by
          have hw := TaskStep.written p [] (b :: rest) [] k' fs1 fs2 (by simp) (by
            rw [writeAt_eq hc, List.nil_append]
            exact hs2)
          rw [List.append_nil] at hw
          exact hw
        exact .step h1 (.step (.closed p _ k' _) hend)
  | say _ ih => exact fun fs => .step (.say _ _ fs) (ih fs)

end Verif

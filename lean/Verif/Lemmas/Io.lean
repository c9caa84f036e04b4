import Verif.Spec.Io
import Verif.Lemmas.Serialize

/-! # Runs with writers and readers -/

namespace GS
variable {α β : Type}

/-! ### Writers -/

theorem WriteAll.prefix {buf acc : Bytes} {r : WriteEnd} (h : WriteAll buf acc r) :
    ∃ t, buf = acc ++ t ∧ (r = .ok → t = []) ∧ (r = .err → t ≠ []) := by
  induction h with
  | done => exact ⟨[], by simp⟩
  | @part buf acc r n h0 hn h ih =>
    obtain ⟨t, h1, h2, h3⟩ := ih
    exact ⟨t, by rw [List.append_assoc, ← h1, List.take_append_drop], h2, h3⟩
  | interrupted hb h ih => exact ih
  | zero hb => exact ⟨_, rfl, by simp, fun _ => hb⟩
  | fail hb => exact ⟨_, rfl, by simp, fun _ => hb⟩
  | crash => exact ⟨_, rfl, by simp, by simp⟩

theorem WriteAll.mk {acc t : Bytes} {r : WriteEnd} (h : WriteAll t [] r) : WriteAll (acc ++ t) acc r := by
  cases hacc : acc with
  | nil => simpa using h
  | cons a l =>
    have := WriteAll.part (buf := acc ++ t) (acc := []) (r := r) acc.length (by simp [hacc]) (by simp)
      (by simpa using h)
    rwa [List.take_left, List.append_nil, hacc] at this

theorem writeAll_ok {buf acc : Bytes} : WriteAll buf acc .ok ↔ acc = buf := by
  constructor
  · intro h
    obtain ⟨t, h1, h2, -⟩ := h.prefix
    rw [h1, h2 rfl, List.append_nil]
  · rintro rfl
    have := WriteAll.mk (acc := acc) WriteAll.done
    rwa [List.append_nil] at this

theorem WriteRun.prefix {bufs : List Bytes} {acc : Bytes} {r : WriteEnd} (h : WriteRun bufs acc r) :
    ∃ t, bufs.flatten = acc ++ t ∧ (r = .ok → t = []) ∧ (r = .err → t ≠ []) := by
  induction h with
  | nil => exact ⟨[], by simp⟩
  | @next buf bufs acc acc' r h h' ih =>
    obtain ⟨t, h1, h2, h3⟩ := ih
    cases writeAll_ok.mp h
    exact ⟨t, by simp [h1], h2, h3⟩
  | @stop buf bufs acc r h hr =>
    obtain ⟨t, h1, h2, h3⟩ := h.prefix
    exact ⟨t ++ bufs.flatten, by simp [h1], fun h => absurd h hr, fun h => by simp [h3 h]⟩
  | crash => exact ⟨_, rfl, by simp, by simp⟩

theorem WriteRun.all (bufs : List Bytes) : WriteRun bufs bufs.flatten .ok := by
  induction bufs with
  | nil => exact .nil
  | cons b bufs ih => exact .next (writeAll_ok.mpr rfl) ih

theorem WriteRun.mk {r : WriteEnd} (hr : r ≠ .ok) (h : ∀ t : Bytes, t ≠ [] → WriteAll t [] r) :
    ∀ {bufs : List Bytes} {acc t : Bytes}, t ≠ [] → bufs.flatten = acc ++ t → WriteRun bufs acc r := by
  intro bufs
  induction bufs with
  | nil => intro acc t ht h; simp at h; exact absurd h.2 ht
  | cons b bufs ih =>
    intro acc t ht hb
    rw [List.flatten_cons] at hb
    rcases List.append_eq_append_iff.mp hb with ⟨a, h1, h2⟩ | ⟨a, h1, h2⟩
    · rw [h1]
      exact .next (writeAll_ok.mpr rfl) (ih ht h2)
    · cases ha : a with
      | nil =>
        rw [ha, List.nil_append] at h2
        rw [ha, List.append_nil] at h1
        have := WriteRun.next (bufs := bufs) (writeAll_ok.mpr h1.symm) (ih (acc := []) ht h2.symm)
        rwa [List.append_nil] at this
      | cons x l =>
        rw [h1]
        exact .stop (WriteAll.mk (h a (by simp [ha]))) hr

theorem writeRun_ok {bufs : List Bytes} {acc : Bytes} : WriteRun bufs acc .ok ↔ acc = bufs.flatten := by
  constructor
  · intro h
    obtain ⟨t, h1, h2, -⟩ := h.prefix
    rw [h1, h2 rfl, List.append_nil]
  · rintro rfl
    exact .all bufs

theorem writeRun_err {bufs : List Bytes} {acc : Bytes} : WriteRun bufs acc .err ↔ ∃ t, t ≠ [] ∧ bufs.flatten = acc ++ t := by
  constructor
  · intro h
    obtain ⟨t, h1, -, h3⟩ := h.prefix
    exact ⟨t, h3 rfl, h1⟩
  · rintro ⟨t, ht, h⟩
    exact WriteRun.mk (by simp) (fun t ht => .fail ht) ht h

theorem WriteRun.all_crash (bufs : List Bytes) : WriteRun bufs bufs.flatten .crash := by
  induction bufs with
  | nil => exact .crash
  | cons b bufs ih => exact .next (writeAll_ok.mpr rfl) ih

theorem writeRun_crash {bufs : List Bytes} {acc : Bytes} : WriteRun bufs acc .crash ↔ ∃ t, bufs.flatten = acc ++ t := by
  constructor
  · intro h
    obtain ⟨t, h1, -, -⟩ := h.prefix
    exact ⟨t, h1⟩
  · rintro ⟨t, h⟩
    by_cases ht : t = []
    · subst ht
      rw [List.append_nil] at h
      exact h ▸ .all_crash bufs
    · exact WriteRun.mk (by simp) (fun _ _ => .crash) ht h

/-! ### Readers -/

theorem ReadExact.sound {k : Nat} {bs rest : Bytes} {r : Option Bytes} {p : Prop} (h : ReadExact p k bs r rest) :
    (∀ b, r = some b → readExact k bs = .ok (b, rest)) ∧ (r = none → ¬ p → readExact k bs = .error .ioError) := by
  induction h with
  | done => simp [readExact]
  | @part k bs rest r n h0 hk hn h ih =>
    constructor
    · intro b hb
      cases r with
      | none => simp at hb
      | some b' =>
        simp only [Option.map_some, Option.some.injEq] at hb
        obtain ⟨h1, h2⟩ := readExact_iff.mp (ih.1 _ rfl)
        rw [readExact_iff, ← hb]
        refine ⟨by rw [List.append_assoc, ← h1, List.take_append_drop], ?_⟩
        rw [List.length_append, h2, List.length_take]
        omega
    · intro hr hp
      have := ih.2 (by simpa using hr) hp
      unfold readExact at this ⊢
      split_ifs at this with h1
      rw [if_pos]
      rw [List.length_drop] at h1
      omega
  | interrupted hk h ih => exact ih
  | eof hk => simp [readExact, hk]
  | fail hf hk => exact ⟨by simp, fun _ h => absurd hf h⟩

theorem ReadExact.mk {k : Nat} {b rest : Bytes} {p : Prop} (h : b.length = k) : ReadExact p k (b ++ rest) (some b) rest := by
  cases b with
  | nil => simp at h; subst h; exact .done
  | cons a l =>
    have := ReadExact.part (faults := p) (k := k) (bs := a :: l ++ rest) (rest := rest) (r := some [])
      k (by simp at h; omega) (le_refl _) (by simp at h ⊢; omega)
      (by rw [Nat.sub_self, ← h, List.drop_left]; exact .done)
    rw [← h, List.take_left, Option.map_some, List.append_nil, h] at this
    exact this

theorem ReadExact.mk_none {k : Nat} {bs : Bytes} {p : Prop} (h : bs.length < k) : ReadExact p k bs none [] := by
  cases bs with
  | nil => exact .eof h
  | cons a l =>
    have := ReadExact.part (faults := p) (k := k) (bs := a :: l) (rest := []) (r := none)
      (a :: l).length (by simp) h.le (le_refl _)
      (by rw [List.drop_length]; exact .eof (by omega))
    exact this

namespace ReadProg

theorem Run.ok_slice {p : Prop} {q : ReadProg α} {bs rest : Bytes} {r : Except SerErr α} (h : q.Run p bs r rest) :
    (∀ x, r = .ok x → q.slice bs = .ok (x, rest)) ∧ (∀ err, r = .error err → ¬ p → q.slice bs = .error err) := by
  induction h with
  | ret => simp [slice]
  | fail => simp [slice]
  | read h h' ih =>
    rw [slice, h.sound.1 _ rfl]
    exact ih
  | readErr h =>
    refine ⟨by simp, fun err he hp => ?_⟩
    rw [slice, h.sound.2 rfl hp]
    cases he
    rfl

theorem Run.exists_slice {p : Prop} (q : ReadProg α) (bs : Bytes) :
    (∀ x rest, q.slice bs = .ok (x, rest) → q.Run p bs (.ok x) rest) ∧
    ∀ err, q.slice bs = .error err → ∃ rest, q.Run p bs (.error err) rest := by
  induction q generalizing bs with
  | ret a => simp only [slice, Except.ok.injEq, Prod.mk.injEq]; exact ⟨by rintro _ _ ⟨rfl, rfl⟩; exact .ret, by simp⟩
  | fail err => simp only [slice, Except.error.injEq]; exact ⟨by simp, by rintro _ rfl; exact ⟨_, .fail⟩⟩
  | read k f ih =>
    rw [slice]
    cases hr : readExact k bs with
    | error err =>
      unfold readExact at hr
      split_ifs at hr with hl
      cases hr
      constructor
      · intro _ _ h
        cases h
      · intro _ h
        cases h
        exact ⟨_, .readErr (.mk_none hl)⟩
    | ok br =>
      obtain ⟨b, rest⟩ := br
      obtain ⟨h1, h2⟩ := readExact_iff.mp hr
      subst h1
      constructor
      · intro x rest' h
        exact .read (.mk h2) ((ih b rest).1 x rest' h)
      · intro err h
        obtain ⟨rest', h⟩ := (ih b rest).2 err h
        exact ⟨rest', .read (.mk h2) h⟩

theorem ReadExact.fault {k : Nat} {bs rest : Bytes} {r : Option Bytes} (h : ReadExact True k bs r rest) :
    r = none ∨ ReadExact False k bs r rest := by
  cases r with
  | none => exact .inl rfl
  | some b =>
    obtain ⟨h1, h2⟩ := readExact_iff.mp (h.sound.1 _ rfl)
    subst h1
    exact .inr (.mk h2)

theorem Run.fault {q : ReadProg α} {bs rest : Bytes} {r : Except SerErr α} (h : q.Run True bs r rest) :
    r = .error .ioError ∨ q.Run False bs r rest := by
  induction h with
  | ret => exact .inr .ret
  | fail => exact .inr .fail
  | read h h' ih =>
    rcases ih with rfl | ih
    · exact .inl rfl
    · exact .inr (.read ((ReadExact.fault h).resolve_left (by simp)) ih)
  | readErr h => exact .inl rfl

theorem slice_bind (p : ReadProg α) (f : α → ReadProg β) (bs : Bytes) :
    (p.bind f).slice bs = (do let (a, bs) ← p.slice bs; (f a).slice bs) := by
  induction p generalizing bs with
  | ret a => rfl
  | fail err => rfl
  | read k g ih =>
    simp only [ReadProg.bind, slice]
    cases readExact k bs with
    | error err => rfl
    | ok br => exact ih br.1 br.2

theorem slice_bind' (p : ReadProg α) (f : α → ReadProg β) (bs : Bytes) :
    (p >>= f).slice bs = (do let (a, bs) ← p.slice bs; (f a).slice bs) := slice_bind p f bs

theorem slice_pure (a : α) (bs : Bytes) : (pure a : ReadProg α).slice bs = .ok (a, bs) := rfl

theorem slice_ofExcept (x : Except SerErr α) (bs : Bytes) : (ofExcept x).slice bs = (do let a ← x; pure (a, bs)) := by
  cases x <;> rfl

end ReadProg

/-! ### Runs of a codec -/

theorem IoCodec.serves (c : IoCodec α) : c.Serves c.toCodec where
  write_ok _ _ _ := writeRun_ok
  write_err _ _ _ := writeRun_err
  write_crash _ _ _ := writeRun_crash
  read_ok _ _ _ _ _ := ⟨fun h => h.ok_slice.1 _ rfl, fun h => (ReadProg.Run.exists_slice _ _).1 _ _ h⟩
  read_err _ _ _ _ := ⟨fun ⟨_, h⟩ => h.ok_slice.2 _ rfl not_false, fun h => (ReadProg.Run.exists_slice _ _).2 _ h⟩
  read_fault _ _ _ _ _ h := h.fault

/-! ### The codecs on byte strings -/

theorem Codec.ext' {c d : Codec α} (h1 : c.ser = d.ser) (h2 : c.size = d.size) (h3 : c.de = d.de) (h4 : c.check = d.check)
    (h5 : c.batchCheck = d.batchCheck) : c = d := by
  cases c; cases d; simp_all

theorem u64Io_toCodec : u64Io.toCodec = u64Codec := by
  exact Codec.ext' (by funext m x; simp [IoCodec.toCodec, u64Io, u64Codec]) rfl rfl rfl rfl

theorem u8Io_toCodec : u8Io.toCodec = u8Codec := by
  exact Codec.ext' (by funext m x; simp [IoCodec.toCodec, u8Io, u8Codec]) rfl rfl rfl rfl

theorem ioLoop_slice (c : IoCodec α) (m : Compress) (n : Nat) (bs : Bytes) :
    (ioLoop c m n).slice bs = deLoop c.toCodec m n bs := by
  induction n generalizing bs with
  | zero => rfl
  | succ n ih =>
    simp only [ioLoop, deLoop, ReadProg.slice_bind', ih, ReadProg.slice_pure]
    rfl

theorem vecIo_toCodec (c : IoCodec α) : (vecIo c).toCodec = vecCodec c.toCodec := by
  refine Codec.ext' ?_ rfl ?_ rfl rfl
  · funext m l
    change (leBytes 8 l.length :: (l.map (c.ser m)).flatten).flatten =
      leBytes 8 l.length ++ (l.map fun x => (c.ser m x).flatten).flatten
    rw [List.flatten_cons]
    congr 1
    induction l with
    | nil => rfl
    | cons a l ih => simp [ih]
  · funext m v bs
    rw [show (vecIo c).toCodec.de m v bs = ((vecIo c).de m v).slice bs from rfl]
    simp only [vecIo, vecCodec, ReadProg.slice_bind']
    rw [show (u64Io.de m v).slice bs = u64Codec.de m v bs from rfl]
    cases u64Codec.de m v bs with
    | error err => rfl
    | ok p =>
      simp only [ser_ok_bind]
      rw [ioLoop_slice]
      cases deLoop c.toCodec m p.1 p.2 with
      | error err => rfl
      | ok q =>
        simp only [ser_ok_bind]
        cases v with
        | No => rfl
        | Yes =>
          simp only [ReadProg.slice_bind', ReadProg.slice_ofExcept]
          change _ = (do c.batchCheck q.1; pure (q.1, q.2))
          cases c.batchCheck q.1 <;> rfl

theorem prodIo_toCodec (c : IoCodec α) (d : IoCodec β) : (prodIo c d).toCodec = prodCodec c.toCodec d.toCodec := by
  refine Codec.ext' (by funext m x; simp [IoCodec.toCodec, prodIo, prodCodec]) rfl ?_ rfl rfl
  funext m v bs
  simp only [IoCodec.toCodec, prodIo, ReadProg.slice_bind', ReadProg.slice_pure]
  rfl

theorem structIo_toCodec {mk : α → β} {fields : β → α} (c : IoCodec α) :
    (structIo mk fields c).toCodec = structCodec mk fields c.toCodec := by
  refine Codec.ext' rfl rfl ?_ rfl rfl
  funext m v bs
  simp only [IoCodec.toCodec, structIo, ReadProg.slice_bind', ReadProg.slice_pure]
  rfl

theorem equTypeIo_toCodec : EquType.io.toCodec = EquType.codec := by
  refine Codec.ext' (by funext m x; cases x <;> rfl) rfl ?_ rfl rfl
  funext m v bs
  simp only [IoCodec.toCodec, EquType.io, EquType.codec, ReadProg.slice_bind']
  rw [show (u8Io.de .Yes .Yes).slice bs = u8Codec.de .Yes .Yes bs from rfl]
  cases u8Codec.de .Yes .Yes bs with
  | error err => rfl
  | ok p =>
    simp only [ser_ok_bind]
    split_ifs <;> rfl

end GS

import Verif.Spec.Alloc
import Verif.Lemmas.Serialize
import Mathlib.Tactic.Linarith

/-! # Lemmas about memory reserved while reading -/

namespace GS
open Reading
variable {α β : Type} {lim : Nat}

namespace Reading

theorem bind_def (x : Reading α) (f : α → Reading β) : (x >>= f) = andThen x f := rfl

/-- All requests are granted and the result is `p`, or the last one is refused. -/
def Rel (lim : Nat) (r : Reading α) (p : Except SerErr α) : Prop :=
  ((∀ n ∈ r.requests, n ≤ lim) ∧ r.result = (lift p).result) ∨
    ∃ n ns, r.requests = ns ++ [n] ∧ (∀ n ∈ ns, n ≤ lim) ∧ lim < n ∧ r.result = .error (.refused n)

theorem rel_lift (p : Except SerErr α) : Rel lim (lift p) p := .inl ⟨by simp [lift], rfl⟩
theorem rel_ret (a : α) : Rel lim (ret a) (pure a) := .inl ⟨by simp [ret], rfl⟩

theorem rel_bind {x : Reading α} {p : Except SerErr α} {f : α → Reading β} {g : α → Except SerErr β} (h : Rel lim x p)
    (hf : ∀ a, Rel lim (f a) (g a)) : Rel lim (x >>= f) (p >>= g) := by
  rw [bind_def]
  rcases h with ⟨h1, h2⟩ | ⟨n, ns, h1, h2, h3, h4⟩
  · cases p with
    | error e =>
      simp only [lift] at h2
      refine .inl ⟨?_, ?_⟩ <;> simp only [andThen, h2]
      · exact h1
      · rfl
    | ok a =>
      simp only [lift] at h2
      rw [ser_ok_bind]
      simp only [Rel, andThen, h2]
      rcases hf a with ⟨k1, k2⟩ | ⟨n, ns, k1, k2, k3, k4⟩
      · refine .inl ⟨fun n hn => ?_, k2⟩
        rcases List.mem_append.mp hn with hn | hn
        exacts [h1 n hn, k1 n hn]
      · refine .inr ⟨n, x.requests ++ ns, by rw [k1, List.append_assoc], fun n hn => ?_, k3, k4⟩
        rcases List.mem_append.mp hn with hn | hn
        exacts [h1 n hn, k2 n hn]
  · refine .inr ⟨n, ns, ?_, h2, h3, ?_⟩ <;> simp only [andThen, h4, h1]

theorem rel_reserve {n : Nat} {f : Unit → Reading β} {p : Except SerErr β} (h : Rel lim (f ()) p) :
    Rel lim (reserve lim n >>= f) p := by
  rw [bind_def]
  by_cases hn : n ≤ lim
  · simp only [Rel, andThen, reserve, hn, if_true]
    rcases h with ⟨k1, k2⟩ | ⟨n', ns, k1, k2, k3, k4⟩
    · exact .inl ⟨by simpa [hn] using k1, k2⟩
    · exact .inr ⟨n', n :: ns, by rw [k1]; rfl, by simpa [hn] using k2, k3, k4⟩
  · refine .inr ⟨n, [], ?_, by simp, by omega, ?_⟩ <;> simp [andThen, reserve, hn]

/-- The sizes `ns` are requested and `a` is returned, if there is room. -/
def Exact (lim : Nat) (r : Reading α) (a : α) (ns : List Nat) : Prop :=
  ((∀ n ∈ ns, n ≤ lim) → r = ⟨ns, .ok a⟩) ∧ ((∃ n ∈ ns, lim < n) → ∃ n, r.result = .error (.refused n))

theorem exact_ret (a : α) : Exact lim (ret a) a [] := ⟨fun _ => rfl, by simp⟩
theorem exact_lift {p : Except SerErr α} {a : α} (h : p = .ok a) : Exact lim (lift p) a [] := by
  subst h; exact ⟨fun _ => rfl, by simp⟩
theorem exact_reserve (n : Nat) : Exact lim (reserve lim n) () [n] := by
  refine ⟨fun h => ?_, fun h => ⟨n, ?_⟩⟩
  · simp only [List.mem_singleton, forall_eq] at h
    simp [reserve, h]
  · simp only [List.mem_singleton, exists_eq_left] at h
    simp [reserve, Nat.not_le.mpr h]

theorem exact_bind {x : Reading α} {f : α → Reading β} {a : α} {b : β} {ns ms : List Nat} (h : Exact lim x a ns) (hf : Exact lim (f a) b ms) :
    Exact lim (x >>= f) b (ns ++ ms) := by
  rw [bind_def]
  constructor
  · intro hn
    rw [h.1 fun n hm => hn n (List.mem_append_left _ hm)]
    simp only [andThen]
    rw [hf.1 fun n hm => hn n (List.mem_append_right _ hm)]
  · rintro ⟨n, hn, hl⟩
    by_cases hs : ∃ n ∈ ns, lim < n
    · obtain ⟨n', h'⟩ := h.2 hs
      exact ⟨n', by simp only [andThen, h']⟩
    · have h1 := h.1 (by simpa using hs)
      rcases List.mem_append.mp hn with hn | hn
      · exact absurd ⟨n, hn, hl⟩ hs
      · obtain ⟨n', h'⟩ := hf.2 ⟨n, hn, hl⟩
        exact ⟨n', by rw [h1]; simpa only [andThen] using h'⟩

end Reading

/-- The part of `MemLaws` that composes. -/
structure MemGood (lim : Nat) (c : MemCodec α) (room : α → List Nat) (k : Nat) : Prop where
  rel : ∀ m v bs, Rel lim (c.de m v bs) (c.codec.de m v bs)
  exact : ∀ m v bs x rest, c.codec.de m v bs = .ok (x, rest) → Exact lim (c.de m v bs) (x, rest) (room x)
  lin : ∀ m v bs x rest, c.codec.de m v bs = .ok (x, rest) → rest.length ≤ bs.length ∧ (room x).sum ≤ k * (bs.length - rest.length)
  /-- the first thing read fails on an empty input -/
  empty : ∀ m v, ∃ err, c.de m v [] = ⟨[], .error (.err err)⟩

theorem MemGood.consumes {c : MemCodec α} {room : α → List Nat} {k : Nat} (h : MemGood lim c room k) {fits valid : α → Prop}
    (hc : c.codec.Good fits valid) {m v} {bs rest : Bytes} {x : α} (hd : c.codec.de m v bs = .ok (x, rest)) : rest.length < bs.length := by
  obtain ⟨_, used, rfl, hu⟩ := hc.stream m v bs x rest hd
  cases used with
  | cons b l => simp; omega
  | nil =>
    have h1 := hu []
    obtain ⟨err, h2⟩ := h.empty m v
    rcases h.rel m v [] with ⟨_, h3⟩ | ⟨n, ns, h3, _⟩
    · rw [List.nil_append] at h1
      rw [h1, h2] at h3
      simp [lift] at h3
    · rw [h2] at h3
      simp at h3

theorem MemGood.mono {c : MemCodec α} {room : α → List Nat} {k k' : Nat} (h : MemGood lim c room k) (hk : k ≤ k') : MemGood lim c room k' :=
  ⟨h.rel, h.exact, fun m v bs x rest hd => ⟨(h.lin m v bs x rest hd).1, (h.lin m v bs x rest hd).2.trans (Nat.mul_le_mul_right _ hk)⟩, h.empty⟩

theorem elem_mem {c : Codec α} (hc : c.Lawful) (hn : c.Needs) (s : Nat) : MemGood lim (elemMem s c) (fun _ => []) 0 where
  rel m v bs := rel_lift _
  exact m v bs x rest hd := exact_lift hd
  lin m v bs x rest hd := by
    obtain ⟨used, rfl, -⟩ := hc.stream m v bs x rest hd
    simp
  empty m v := by
    obtain ⟨err, h⟩ := hn m v
    exact ⟨err, by simp only [elemMem, h]; rfl⟩

theorem prod_mem {c : MemCodec α} {d : MemCodec β} {r1 : α → List Nat} {r2 : β → List Nat} {k1 k2 : Nat} (hc : MemGood lim c r1 k1)
    (hd : MemGood lim d r2 k2) : MemGood lim (prodMem c d) (fun p => r1 p.1 ++ r2 p.2) (k1 + k2) where
  rel m v bs := rel_bind (hc.rel m v bs) fun _ => rel_bind (hd.rel m v _) fun _ => rel_ret _
  exact m v bs x rest h := by
    obtain ⟨mid, h1, h2⟩ := prod_de.mp h
    have := exact_bind (f := fun (p : α × Bytes) => d.de m v p.2 >>= fun q => ret ((p.1, q.1), q.2)) (hc.exact m v bs x.1 mid h1)
      (exact_bind (hd.exact m v mid x.2 rest h2) (exact_ret _))
    rw [List.append_nil] at this
    exact this
  lin m v bs x rest h := by
    obtain ⟨mid, h1, h2⟩ := prod_de.mp h
    obtain ⟨l1, l2⟩ := hc.lin m v bs x.1 mid h1
    obtain ⟨l3, l4⟩ := hd.lin m v mid x.2 rest h2
    refine ⟨l3.trans l1, ?_⟩
    rw [List.sum_append]
    have e : bs.length - rest.length = (bs.length - mid.length) + (mid.length - rest.length) := by omega
    rw [e]
    nlinarith [Nat.zero_le (k2 * (bs.length - mid.length)), Nat.zero_le (k1 * (mid.length - rest.length))]
  empty m v := by
    obtain ⟨err, h⟩ := hc.empty m v
    refine ⟨err, ?_⟩
    simp only [prodMem, h, bind_def, andThen]

theorem struct_mem {mk : α → β} {fields : β → α} (h1 : ∀ a, fields (mk a) = a) (h2 : ∀ b, mk (fields b) = b) {c : MemCodec α}
    {r : α → List Nat} {k : Nat} (hc : MemGood lim c r k) : MemGood lim (structMem mk fields c) (fun b => r (fields b)) k where
  rel m v bs := rel_bind (hc.rel m v bs) fun _ => rel_ret _
  exact m v bs x rest h := by
    have h3 := (struct_de h1 h2).mp h
    have := exact_bind (f := fun (p : α × Bytes) => ret (mk p.1, p.2)) (hc.exact m v bs _ rest h3) (exact_ret _)
    rw [List.append_nil] at this
    simp only [h2] at this
    exact this
  lin m v bs x rest h := hc.lin m v bs _ rest ((struct_de h1 h2).mp h)
  empty m v := by
    obtain ⟨err, h⟩ := hc.empty m v
    refine ⟨err, ?_⟩
    simp only [structMem, h, bind_def, andThen]

section vec
variable {c : MemCodec α} {r : α → List Nat} {k : Nat} {fits valid : α → Prop}

theorem loop_rel (hc : MemGood lim c r k) (m : Compress) (n : Nat) (bs : Bytes) : Rel lim (deLoopMem c m n bs) (deLoop c.codec m n bs) := by
  induction n generalizing bs with
  | zero => exact rel_ret _
  | succ n ih => exact rel_bind (hc.rel m .No bs) fun _ => rel_bind (ih _) fun _ => rel_ret _

theorem loop_exact (hc : MemGood lim c r k) (m : Compress) (n : Nat) (bs : Bytes) (l : List α) (rest : Bytes)
    (h : deLoop c.codec m n bs = .ok (l, rest)) : Exact lim (deLoopMem c m n bs) (l, rest) (l.map r).flatten := by
  induction n generalizing bs l with
  | zero =>
    simp only [deLoop, Except.ok.injEq, Prod.mk.injEq] at h
    obtain ⟨rfl, rfl⟩ := h
    exact exact_ret _
  | succ n ih =>
    simp only [deLoop, ser_bind_ok, ser_pure, Except.ok.injEq, Prod.mk.injEq, Prod.exists] at h
    obtain ⟨a, mid, h1, l', r', h2, rfl, rfl⟩ := h
    have := exact_bind (f := fun (p : α × Bytes) => deLoopMem c m n p.2 >>= fun q => ret (p.1 :: q.1, q.2)) (hc.exact m .No bs a mid h1)
      (exact_bind (ih mid l' h2) (exact_ret _))
    rw [List.append_nil] at this
    exact this

theorem loop_lin (hc : MemGood lim c r k) (hg : c.codec.Good fits valid) (m : Compress) (n : Nat) (bs : Bytes) (l : List α) (rest : Bytes)
    (h : deLoop c.codec m n bs = .ok (l, rest)) :
    l.length = n ∧ rest.length + n ≤ bs.length ∧ (l.map r).flatten.sum ≤ k * (bs.length - rest.length) := by
  induction n generalizing bs l with
  | zero =>
    simp only [deLoop, Except.ok.injEq, Prod.mk.injEq] at h
    obtain ⟨rfl, rfl⟩ := h
    simp
  | succ n ih =>
    simp only [deLoop, ser_bind_ok, ser_pure, Except.ok.injEq, Prod.mk.injEq, Prod.exists] at h
    obtain ⟨a, mid, h1, l', r', h2, rfl, rfl⟩ := h
    obtain ⟨i1, i2, i3⟩ := ih mid l' h2
    have j1 := hc.consumes hg h1
    obtain ⟨-, j2⟩ := hc.lin m .No bs a mid h1
    refine ⟨by simp [i1], by omega, ?_⟩
    simp only [List.map_cons, List.flatten_cons, List.sum_append]
    have e : bs.length - r'.length = (bs.length - mid.length) + (mid.length - r'.length) := by omega
    rw [e, Nat.mul_add]
    exact Nat.add_le_add j2 i3

theorem vec_mem (hc : MemGood lim c r k) (hg : c.codec.Good fits valid) :
    MemGood lim (vecMem lim c) (fun l => l.length * c.sizeOf :: (l.map r).flatten) (c.sizeOf + k) where
  rel m v bs := by
    refine rel_bind (rel_lift _) fun p => rel_reserve (rel_bind (loop_rel hc m p.1 p.2) fun q => ?_)
    cases v with
    | No => exact rel_ret _
    | Yes => exact rel_bind (rel_lift _) fun _ => rel_ret _
  exact m v bs l rest h := by
    simp only [vecMem, vecCodec, ser_bind_ok, Prod.exists] at h
    obtain ⟨n, b0, h1, l', b1, h2, h3⟩ := h
    have hb : l' = l ∧ b1 = rest ∧ (v = .Yes → c.codec.batchCheck l = .ok ()) := by
      cases v with
      | No =>
        simp only [ser_pure, Except.ok.injEq, Prod.mk.injEq] at h3
        exact ⟨h3.1, h3.2, by simp⟩
      | Yes =>
        simp only [ser_bind_ok, ser_pure, Except.ok.injEq, Prod.mk.injEq] at h3
        obtain ⟨_, h4, rfl, rfl⟩ := h3
        exact ⟨rfl, rfl, fun _ => h4⟩
    obtain ⟨rfl, rfl, hb⟩ := hb
    have hl : l'.length = n := (loop_lin hc hg m n b0 l' b1 h2).1
    rw [hl]
    have tail : Exact lim (match v with
        | .Yes => lift (c.codec.batchCheck l') >>= fun _ => ret (l', b1)
        | .No => ret (l', b1)) (l', b1) [] := by
      cases v with
      | No => exact exact_ret _
      | Yes => exact exact_bind (exact_lift (hb rfl)) (exact_ret _)
    have := exact_bind (f := fun (p : Nat × Bytes) => reserve lim (p.1 * c.sizeOf) >>= fun _ => deLoopMem c m p.1 p.2 >>= fun q => match v with
        | .Yes => lift (c.codec.batchCheck q.1) >>= fun _ => ret (q.1, q.2)
        | .No => ret (q.1, q.2)) (exact_lift (lim := lim) h1)
      (exact_bind (exact_reserve (n * c.sizeOf)) (exact_bind (loop_exact hc m n b0 l' b1 h2) tail))
    rw [List.append_nil] at this
    exact this
  lin m v bs l rest h := by
    simp only [vecMem, vecCodec, ser_bind_ok, Prod.exists] at h
    obtain ⟨n, b0, h1, l', b1, h2, h3⟩ := h
    have hb : l' = l ∧ b1 = rest := by
      cases v with
      | No =>
        simp only [ser_pure, Except.ok.injEq, Prod.mk.injEq] at h3
        exact ⟨h3.1, h3.2⟩
      | Yes =>
        simp only [ser_bind_ok, ser_pure, Except.ok.injEq, Prod.mk.injEq] at h3
        obtain ⟨_, h4, rfl, rfl⟩ := h3
        exact ⟨rfl, rfl⟩
    obtain ⟨rfl, rfl⟩ := hb
    obtain ⟨hl, h4, h5⟩ := loop_lin hc hg m n b0 l' b1 h2
    obtain ⟨b, rfl, hb8, -⟩ := u64_de.mp h1
    rw [List.length_append]
    refine ⟨by omega, ?_⟩
    rw [List.sum_cons, hl]
    have e : b.length + b0.length - b1.length = 8 + (b0.length - b1.length) := by omega
    have hn : n ≤ 8 + (b0.length - b1.length) := by omega
    rw [e]
    have := Nat.mul_le_mul_left c.sizeOf hn
    nlinarith
  empty m v := ⟨.ioError, by simp [vecMem, u64Codec, readExact, lift, bind_def, andThen]⟩

theorem vec_eight (hc : MemGood lim c r k) (m : Compress) (v : Validate) (n : Nat) (h0 : 0 < n) (hn : n < 2 ^ 64) :
    ((vecMem lim c).de m v (leBytes 8 n)).requests = [n * c.sizeOf] ∧
    (n * c.sizeOf ≤ lim → ∃ err, ((vecMem lim c).de m v (leBytes 8 n)).result = .error (.err err)) ∧
    (lim < n * c.sizeOf → ((vecMem lim c).de m v (leBytes 8 n)).result = .error (.refused (n * c.sizeOf))) := by
  have h1 : u64Codec.de m v (leBytes 8 n) = .ok (n, []) := by
    have := u64_good.round m v n [] hn (by simp)
    rwa [List.append_nil] at this
  obtain ⟨n, rfl⟩ := Nat.exists_eq_add_of_lt h0
  rw [Nat.zero_add] at *
  obtain ⟨err, he⟩ := hc.empty m .No
  by_cases hl : (n + 1) * c.sizeOf ≤ lim
  · have e : (vecMem lim c).de m v (leBytes 8 (n + 1)) = ⟨[(n + 1) * c.sizeOf], .error (.err err)⟩ := by
      simp [vecMem, h1, lift, bind_def, andThen, reserve, hl, deLoopMem, he]
    rw [e]
    exact ⟨rfl, fun _ => ⟨err, rfl⟩, fun h => absurd hl (Nat.not_le.mpr h)⟩
  · have e : (vecMem lim c).de m v (leBytes 8 (n + 1)) = ⟨[(n + 1) * c.sizeOf], .error (.refused ((n + 1) * c.sizeOf))⟩ := by
      simp [vecMem, h1, lift, bind_def, andThen, reserve, hl]
    rw [e]
    exact ⟨rfl, fun h => absurd h hl, fun _ => rfl⟩

end vec

/-- How reading starts with the eight bytes of a length. -/
def Starts (lim : Nat) (c : MemCodec α) (first : Nat) : Prop := ∀ m v n, 0 < n → n < 2 ^ 64 →
    (c.de m v (leBytes 8 n)).requests = [n * first] ∧
    (n * first ≤ lim → ∃ err, (c.de m v (leBytes 8 n)).result = .error (.err err)) ∧
    (lim < n * first → (c.de m v (leBytes 8 n)).result = .error (.refused (n * first)))

theorem starts_bind {c : MemCodec α} {d : MemCodec β} {first : Nat} {f : Compress → Validate → α × Bytes → Reading (β × Bytes)}
    (h : Starts lim c first) (hd : ∀ m v bs, d.de m v bs = andThen (c.de m v bs) (f m v)) : Starts lim d first := by
  intro m v n h0 hn
  obtain ⟨h1, h2, h3⟩ := h m v n h0 hn
  rw [hd]
  by_cases hl : n * first ≤ lim
  · obtain ⟨err, he⟩ := h2 hl
    simp only [andThen, he]
    exact ⟨h1, fun _ => ⟨err, rfl⟩, fun h => absurd hl (Nat.not_le.mpr h)⟩
  · have he := h3 (Nat.lt_of_not_le hl)
    simp only [andThen, he]
    exact ⟨h1, fun h => absurd h hl, fun _ => trivial⟩

theorem starts_prod {c : MemCodec α} {d : MemCodec β} {first : Nat} (h : Starts lim c first) : Starts lim (prodMem c d) first :=
  starts_bind h fun _ _ _ => rfl

theorem starts_struct {c : MemCodec α} {first : Nat} {mk : α → β} {fields : β → α} (h : Starts lim c first) :
    Starts lim (structMem mk fields c) first := starts_bind (f := fun _ _ p => ret (mk p.1, p.2)) h fun _ _ _ => rfl

theorem MemGood.laws {c : MemCodec α} {fits valid : α → Prop} {room room' : α → List Nat} {first k k' : Nat} (h : MemGood lim c room k)
    (hg : c.codec.Good fits valid) (hs : Starts lim c first) (hr : ∀ x, room x = room' x) (hk : k ≤ k') :
    MemLaws lim c fits valid room' first k' := by
  obtain rfl : room = room' := funext hr
  have key : ∀ m v bs x rest, (c.de m v bs).result = .ok (x, rest) → c.codec.de m v bs = .ok (x, rest) := by
    intro m v bs x rest hd
    rcases h.rel m v bs with ⟨-, h2⟩ | ⟨n, ns, -, -, -, h4⟩
    · rw [hd] at h2
      cases hc : c.codec.de m v bs with
      | error e => rw [hc] at h2; simp [lift] at h2
      | ok p => rw [hc] at h2; simp only [lift, Except.ok.injEq] at h2; rw [h2]
    · rw [hd] at h4; simp at h4
  refine ⟨h.rel, fun m v bs x rest hd => ?_, fun m v bs x rest hd => ?_, fun m v x rest hf hv => ?_, hs⟩
  · have hx := h.exact m v bs x rest (key m v bs x rest hd)
    by_cases hl : ∃ n ∈ room x, lim < n
    · obtain ⟨n, hn⟩ := hx.2 hl
      rw [hd] at hn
      simp at hn
    · rw [hx.1 (by simpa using hl)]
  · obtain ⟨l1, l2⟩ := h.lin m v bs x rest (key m v bs x rest hd)
    have l3 := l2.trans (Nat.mul_le_mul_right (bs.length - rest.length) hk)
    rw [Nat.mul_sub] at l3
    have l4 := Nat.mul_le_mul_left k' l1
    omega
  · exact h.exact m v _ x rest (hg.round m v x rest hf hv)

end GS

import Verif.Spec.Debug

/-! Derived `Debug` output can be read back. -/

namespace GS
namespace Debug
variable {α β : Type}

theorem visible_append (s t : List Char) : visible (s ++ t) = visible s ++ visible t := List.filter_append ..

theorem visible_pad (s : List Char) (b : Bool) : visible (pad b s) = visible s := by
  induction s generalizing b with
  | nil => rfl
  | cons c s ih =>
    have : visible (pad (c == '\n') s) = visible s := ih _
    cases b
    · show visible (c :: pad (c == '\n') s) = visible (c :: s)
      rw [← List.singleton_append, visible_append, this, ← visible_append, List.singleton_append]
    · show visible ("    ".toList ++ (c :: pad (c == '\n') s)) = visible (c :: s)
      rw [visible_append, ← List.singleton_append, visible_append, this, ← visible_append, List.singleton_append]
      rfl

/-- What follows the last element. -/
def fin (p : Bool) : List Char := if p then [','] else []

/-- The elements after the first. -/
def more (p : Bool) : List (List Char) → List Char
  | [] => fin p
  | s :: ss => ',' :: (s ++ more p ss)

theorem visible_commaSep (s : List Char) (ss : List (List Char)) :
    visible (commaSep (s :: ss)) = visible s ++ more false (ss.map visible) := by
  induction ss generalizing s with
  | nil => simp [commaSep, more, fin]
  | cons a ss ih =>
    show visible (s ++ ", ".toList ++ commaSep (a :: ss)) = _
    rw [visible_append, visible_append, ih]
    simp [more, visible]

theorem visible_commaLines (s : List Char) (ss : List (List Char)) :
    visible (commaLines (s :: ss)) = visible s ++ more true (ss.map visible) := by
  induction ss generalizing s with
  | nil =>
    show visible (pad true (s ++ ",\n".toList) ++ []) = _
    rw [List.append_nil, visible_pad, visible_append]
    rfl
  | cons a ss ih =>
    show visible (pad true (s ++ ",\n".toList) ++ commaLines (a :: ss)) = _
    rw [visible_append, ih, visible_pad, visible_append]
    simp [more, visible]

theorem visible_list (d : Dbg α) (p : Bool) (a : α) (l : List α) :
    visible (debugList d p (a :: l)) = '[' :: (visible (d p a) ++ (more p (l.map fun x => visible (d p x)) ++ [']'])) := by
  cases p
  · show visible ("[".toList ++ commaSep (d false a :: l.map (d false)) ++ "]".toList) = _
    rw [visible_append, visible_append, visible_commaSep]
    simp [visible, Function.comp_def]
  · show visible ("[\n".toList ++ commaLines (d true a :: l.map (d true)) ++ "]".toList) = _
    rw [visible_append, visible_append, visible_commaLines]
    simp [visible, Function.comp_def]

theorem visible_tuple (p : Bool) (name : String) (a : List Char) (l : List (List Char)) :
    visible (debugTuple p name (a :: l)) =
      visible name.toList ++ '(' :: (visible a ++ (more p (l.map visible) ++ [')'])) := by
  cases p
  · show visible (name.toList ++ "(".toList ++ commaSep (a :: l) ++ ")".toList) = _
    simp only [visible_append, visible_commaSep]
    simp [visible]
  · show visible (name.toList ++ "(\n".toList ++ commaLines (a :: l) ++ ")".toList) = _
    simp only [visible_append, visible_commaLines]
    simp [visible]

theorem visible_struct (p : Bool) (name : String) (a : String × List Char) (l : List (String × List Char)) :
    visible (debugStruct p name (a :: l)) =
      visible name.toList ++ '{' :: (visible (debugField a) ++ (more p (l.map fun f => visible (debugField f)) ++ ['}'])) := by
  cases p
  · show visible (name.toList ++ " { ".toList ++ commaSep (debugField a :: l.map debugField) ++ " }".toList) = _
    simp only [visible_append, visible_commaSep]
    simp [visible, Function.comp_def]
  · show visible (name.toList ++ " {\n".toList ++ commaLines (debugField a :: l.map debugField) ++ "}".toList) = _
    simp only [visible_append, visible_commaLines]
    simp [visible, Function.comp_def]

theorem visible_field (n : String) (v : List Char) : visible (debugField (n, v)) = visible n.toList ++ ':' :: visible v := by
  simp only [debugField, visible_append]
  simp [visible]

theorem ends_cons {c : Char} {s : List Char} (h : c ∈ closers) : Ends (c :: s) := by
  intro d hd
  cases hd
  exact h

theorem ends_more {p : Bool} {ss : List (List Char)} {c : Char} {s : List Char} (h : c ∈ closers) :
    Ends (more p ss ++ c :: s) := by
  cases ss with
  | nil => cases p <;> exact ends_cons (by first | exact h | decide)
  | cons a ss => exact ends_cons (by decide)

section
variable {d : Dbg α}

theorem begins_ne (hd : d.Clear) {p : Bool} {a : α} {c : Char} {s t : List Char} (hc : c ∈ closers)
    (h : c :: s = visible (d p a) ++ t) : False := by
  obtain ⟨c', s', h1, h2⟩ := hd.begins p a
  rw [h1] at h
  cases h
  exact h2 hc

theorem more_inj (hd : d.Clear) {p : Bool} {l l' : List α} {s t : List Char}
    (h : more p (l.map fun x => visible (d p x)) ++ ']' :: s = more p (l'.map fun x => visible (d p x)) ++ ']' :: t) :
    l = l' ∧ s = t := by
  induction l generalizing l' with
  | nil =>
    cases l' with
    | nil => simpa [more] using h
    | cons b l' =>
      exfalso
      cases p
      · simp [more, fin] at h
      · simp only [List.map_nil, more, fin, if_true, List.singleton_append, List.map_cons, List.cons_append,
          List.cons.injEq, true_and, List.append_assoc] at h
        exact begins_ne hd (by decide) h
  | cons a l ih =>
    cases l' with
    | nil =>
      exfalso
      cases p
      · simp [more, fin] at h
      · simp only [List.map_nil, more, fin, if_true, List.singleton_append, List.map_cons, List.cons_append,
          List.cons.injEq, true_and, List.append_assoc] at h
        exact begins_ne hd (by decide) h.symm
    | cons b l' =>
      simp only [List.map_cons, more, List.cons_append, List.cons.injEq, true_and, List.append_assoc] at h
      obtain ⟨rfl, h'⟩ := hd.clear p a b _ _ (ends_more (by decide)) (ends_more (by decide)) h
      obtain ⟨rfl, rfl⟩ := ih h'
      exact ⟨rfl, rfl⟩

end

theorem clear_list {d : Dbg α} (hd : d.Clear) : (debugList d).Clear := by
  constructor
  · intro p l
    cases l with
    | nil => exact ⟨'[', [']'], by cases p <;> rfl, by decide⟩
    | cons a l => exact ⟨_, _, visible_list d p a l, by decide⟩
  · intro p l l' s t hs ht h
    have hnil : visible (debugList d p []) = ['[', ']'] := by cases p <;> rfl
    cases l with
    | nil =>
      cases l' with
      | nil => exact ⟨rfl, by simpa using h⟩
      | cons b l' =>
        exfalso
        rw [hnil, visible_list] at h
        simp only [List.cons_append, List.cons.injEq, true_and, List.nil_append, List.append_assoc] at h
        exact begins_ne hd (by decide) h
    | cons a l =>
      cases l' with
      | nil =>
        exfalso
        rw [hnil, visible_list] at h
        simp only [List.cons_append, List.cons.injEq, true_and, List.nil_append, List.append_assoc] at h
        exact begins_ne hd (by decide) h.symm
      | cons b l' =>
        rw [visible_list, visible_list] at h
        simp only [List.cons_append, List.cons.injEq, true_and, List.nil_append, List.append_assoc] at h
        obtain ⟨rfl, h'⟩ := hd.clear p a b _ _ (ends_more (by decide)) (ends_more (by decide)) h
        obtain ⟨rfl, rfl⟩ := more_inj hd h'
        exact ⟨rfl, rfl⟩

theorem clear_matrix {d : Dbg α} (hd : d.Clear) : (debugMatrix d).Clear := clear_list (clear_list hd)

/-- Reading an element that is followed by a comma. -/
theorem step {d : Dbg α} (hd : d.Clear) {p : Bool} {a b : α} {s t : List Char}
    (h : visible (d p a) ++ ',' :: s = visible (d p b) ++ ',' :: t) : a = b ∧ s = t := by
  obtain ⟨h1, h2⟩ := hd.clear p a b _ _ (ends_cons (by decide)) (ends_cons (by decide)) h
  exact ⟨h1, (List.cons.inj h2).2⟩

/-- Reading the last element. -/
theorem last {d : Dbg α} (hd : d.Clear) {p : Bool} {a b : α} {c : Char} (hc : c ∈ closers) {s t : List Char}
    (h : visible (d p a) ++ (fin p ++ c :: s) = visible (d p b) ++ (fin p ++ c :: t)) : a = b ∧ s = t := by
  have e : ∀ s, Ends (fin p ++ c :: s) := fun s => ends_more (ss := []) hc
  obtain ⟨h1, h2⟩ := hd.clear p a b _ _ (e _) (e _) h
  exact ⟨h1, (List.cons.inj (List.append_cancel_left h2)).2⟩

/-- A name of a type. -/
def IsName (n : String) : Prop := ∃ c s, visible n.toList = c :: s ∧ c ∉ closers

theorem begins_tuple {n : String} (hn : IsName n) (p : Bool) (a : List Char) (l : List (List Char)) :
    ∃ c s, visible (debugTuple p n (a :: l)) = c :: s ∧ c ∉ closers := by
  obtain ⟨c, s, h1, h2⟩ := hn
  rw [visible_tuple, h1]
  exact ⟨c, _, rfl, h2⟩

theorem begins_struct {n : String} (hn : IsName n) (p : Bool) (a : String × List Char) (l : List (String × List Char)) :
    ∃ c s, visible (debugStruct p n (a :: l)) = c :: s ∧ c ∉ closers := by
  obtain ⟨c, s, h1, h2⟩ := hn
  rw [visible_struct, h1]
  exact ⟨c, _, rfl, h2⟩

variable {F G G1 G2 GT : Type} {dF : Dbg F} {d : Dbg G} {d1 : Dbg G1} {d2 : Dbg G2} {dT : Dbg GT}

/-- Take apart an equality of two structs. -/
macro "unstruct" h:ident : tactic => `(tactic|
  (simp only [visible_struct, visible_tuple, visible_field, List.map_cons, List.map_nil, more, List.append_assoc,
    List.cons_append, List.nil_append] at $h:ident))

theorem cancel {s t u : List Char} {c : Char} (h : s ++ c :: t = s ++ c :: u) : t = u :=
  (List.cons.inj (List.append_cancel_left h)).2

theorem clear_com {n : String} (hn : IsName n) (hd : d.Clear) : (Com.debug n d).Clear := by
  refine ⟨fun p a => begins_tuple hn p _ _, fun p a b s t hs ht h => ?_⟩
  simp only [Com.debug] at h
  unstruct h
  obtain ⟨h1, h⟩ := step hd (cancel h)
  obtain ⟨h2, h⟩ := last hd (by decide) h
  exact ⟨by cases a; cases b; simp_all, h⟩

theorem clear_comT (hd : dT.Clear) : (ComT.debug dT).Clear := by
  refine ⟨fun p a => begins_tuple ⟨_, _, rfl, by decide⟩ p _ _, fun p a b s t hs ht h => ?_⟩
  simp only [ComT.debug] at h
  unstruct h
  obtain ⟨h1, h⟩ := step hd (cancel h)
  obtain ⟨h2, h⟩ := step hd h
  obtain ⟨h3, h⟩ := step hd h
  obtain ⟨h4, h⟩ := last hd (by decide) h
  exact ⟨by cases a; cases b; simp_all, h⟩

theorem clear_type : EquType.debug.Clear := by
  have e0 : ∀ p, visible (EquType.debug p .PairingProduct) =
      ['P', 'a', 'i', 'r', 'i', 'n', 'g', 'P', 'r', 'o', 'd', 'u', 'c', 't'] := fun _ => by rfl
  have e1 : ∀ p, visible (EquType.debug p .MultiScalarG1) =
      ['M', 'u', 'l', 't', 'i', 'S', 'c', 'a', 'l', 'a', 'r', 'G', '1'] := fun _ => by rfl
  have e2 : ∀ p, visible (EquType.debug p .MultiScalarG2) =
      ['M', 'u', 'l', 't', 'i', 'S', 'c', 'a', 'l', 'a', 'r', 'G', '2'] := fun _ => by rfl
  have e3 : ∀ p, visible (EquType.debug p .Quadratic) =
      ['Q', 'u', 'a', 'd', 'r', 'a', 't', 'i', 'c'] := fun _ => by rfl
  refine ⟨fun p a => ?_, fun p a b s t hs ht h => ?_⟩
  · cases a
    exacts [⟨_, _, e0 p, by decide⟩, ⟨_, _, e1 p, by decide⟩, ⟨_, _, e2 p, by decide⟩, ⟨_, _, e3 p, by decide⟩]
  · cases a <;> cases b <;> simp [e0, e1, e2, e3] at h ⊢ <;> exact h

theorem clear_commit {n m : String} (hn : IsName n) (hm : IsName m) (hF : dF.Clear) (hd : d.Clear) :
    (Commit.debug n m dF d).Clear := by
  refine ⟨fun p a => begins_struct hn p _ _, fun p a b s t hs ht h => ?_⟩
  simp only [Commit.debug] at h
  unstruct h
  obtain ⟨h1, h⟩ := step (clear_list (clear_com hm hd)) (cancel (cancel h))
  obtain ⟨h2, h⟩ := last (clear_matrix hF) (by decide) (cancel h)
  exact ⟨by cases a; cases b; simp_all, h⟩

theorem clear_equProof (hF : dF.Clear) (h1 : d1.Clear) (h2 : d2.Clear) : (EquProof.debug dF d1 d2).Clear := by
  refine ⟨fun p a => begins_struct ⟨_, _, rfl, by decide⟩ p _ _, fun p a b s t hs ht h => ?_⟩
  simp only [EquProof.debug] at h
  unstruct h
  obtain ⟨k1, h⟩ := step (clear_list (clear_com ⟨_, _, rfl, by decide⟩ h2)) (cancel (cancel h))
  obtain ⟨k2, h⟩ := step (clear_list (clear_com ⟨_, _, rfl, by decide⟩ h1)) (cancel h)
  obtain ⟨k3, h⟩ := step clear_type (cancel h)
  obtain ⟨k4, h⟩ := last (clear_matrix hF) (by decide) (cancel h)
  exact ⟨by cases a; cases b; simp_all, h⟩

theorem clear_cproof (hF : dF.Clear) (h1 : d1.Clear) (h2 : d2.Clear) : (CProof.debug dF d1 d2).Clear := by
  refine ⟨fun p a => begins_struct ⟨_, _, rfl, by decide⟩ p _ _, fun p a b s t hs ht h => ?_⟩
  simp only [CProof.debug] at h
  unstruct h
  obtain ⟨k1, h⟩ := step (clear_commit ⟨_, _, rfl, by decide⟩ ⟨_, _, rfl, by decide⟩ hF h1) (cancel (cancel h))
  obtain ⟨k2, h⟩ := step (clear_commit ⟨_, _, rfl, by decide⟩ ⟨_, _, rfl, by decide⟩ hF h2) (cancel h)
  obtain ⟨k3, h⟩ := last (clear_list (clear_equProof hF h1 h2)) (by decide) (cancel h)
  exact ⟨by cases a; cases b; simp_all, h⟩

theorem clear_crs (h1 : d1.Clear) (h2 : d2.Clear) (hT : dT.Clear) : (CRS.debug d1 d2 dT).Clear := by
  refine ⟨fun p a => begins_struct ⟨_, _, rfl, by decide⟩ p _ _, fun p a b s t hs ht h => ?_⟩
  simp only [CRS.debug] at h
  unstruct h
  obtain ⟨k1, h⟩ := step (clear_list (clear_com ⟨_, _, rfl, by decide⟩ h1)) (cancel (cancel h))
  obtain ⟨k2, h⟩ := step (clear_list (clear_com ⟨_, _, rfl, by decide⟩ h2)) (cancel h)
  obtain ⟨k3, h⟩ := step h1 (cancel h)
  obtain ⟨k4, h⟩ := step h2 (cancel h)
  obtain ⟨k5, h⟩ := last hT (by decide) (cancel h)
  exact ⟨by cases a; cases b; simp_all, h⟩

theorem clear_ppe (hF : dF.Clear) (h1 : d1.Clear) (h2 : d2.Clear) (hT : dT.Clear) : (PPE.debug dF d1 d2 dT).Clear := by
  refine ⟨fun p a => begins_struct ⟨_, _, rfl, by decide⟩ p _ _, fun p a b s t hs ht h => ?_⟩
  simp only [PPE.debug] at h
  unstruct h
  obtain ⟨k1, h⟩ := step (clear_list h1) (cancel (cancel h))
  obtain ⟨k2, h⟩ := step (clear_list h2) (cancel h)
  obtain ⟨k3, h⟩ := step (clear_matrix hF) (cancel h)
  obtain ⟨k4, h⟩ := last hT (by decide) (cancel h)
  exact ⟨by cases a; cases b; simp_all, h⟩

theorem clear_msmeg1 (hF : dF.Clear) (h1 : d1.Clear) : (MSMEG1.debug dF d1).Clear := by
  refine ⟨fun p a => begins_struct ⟨_, _, rfl, by decide⟩ p _ _, fun p a b s t hs ht h => ?_⟩
  simp only [MSMEG1.debug] at h
  unstruct h
  obtain ⟨k1, h⟩ := step (clear_list h1) (cancel (cancel h))
  obtain ⟨k2, h⟩ := step (clear_list hF) (cancel h)
  obtain ⟨k3, h⟩ := step (clear_matrix hF) (cancel h)
  obtain ⟨k4, h⟩ := last h1 (by decide) (cancel h)
  exact ⟨by cases a; cases b; simp_all, h⟩

theorem clear_msmeg2 (hF : dF.Clear) (h2 : d2.Clear) : (MSMEG2.debug dF d2).Clear := by
  refine ⟨fun p a => begins_struct ⟨_, _, rfl, by decide⟩ p _ _, fun p a b s t hs ht h => ?_⟩
  simp only [MSMEG2.debug] at h
  unstruct h
  obtain ⟨k1, h⟩ := step (clear_list hF) (cancel (cancel h))
  obtain ⟨k2, h⟩ := step (clear_list h2) (cancel h)
  obtain ⟨k3, h⟩ := step (clear_matrix hF) (cancel h)
  obtain ⟨k4, h⟩ := last h2 (by decide) (cancel h)
  exact ⟨by cases a; cases b; simp_all, h⟩

theorem clear_quad (hF : dF.Clear) : (QuadEqu.debug dF).Clear := by
  refine ⟨fun p a => begins_struct ⟨_, _, rfl, by decide⟩ p _ _, fun p a b s t hs ht h => ?_⟩
  simp only [QuadEqu.debug] at h
  unstruct h
  obtain ⟨k1, h⟩ := step (clear_list hF) (cancel (cancel h))
  obtain ⟨k2, h⟩ := step (clear_list hF) (cancel h)
  obtain ⟨k3, h⟩ := step (clear_matrix hF) (cancel h)
  obtain ⟨k4, h⟩ := last hF (by decide) (cancel h)
  exact ⟨by cases a; cases b; simp_all, h⟩

/-- The output determines the value. -/
theorem Dbg.inj {d : Dbg α} (hd : d.Clear) (p : Bool) : Function.Injective (d p) := by
  intro a b h
  exact (hd.clear p a b [] [] (by intro c hc; cases hc) (by intro c hc; cases hc) (by rw [h])).1

end Debug
end GS

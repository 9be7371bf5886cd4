import Verif.Lemmas.RadioGatun
/-
RadioGatún: the digest object.
-/
namespace Verif.RadioGatun
open Spec.RadioGatun (st Belt State Params inject round output)
open LSH (ext_getD getD_map_range)

theorem fullBlocks_nest (n N : Nat) (hn : 0 < n) (hN : N % n = 0) (r : Bytes) : ∀ l : List Bytes, (∀ b ∈ l, b.length = N) →
    fullBlocks n (l.flatten ++ r) = l.flatMap (fullBlocks n) ++ fullBlocks n r
  | [], _ => rfl
  | b :: l, h => by
    rw [List.flatten_cons, List.append_assoc, fullBlocks_append n b _ hn (by rw [h b (by simp)]; exact hN), fullBlocks_nest n N hn hN r l (fun x hx => h x (by simp [hx])),
      List.flatMap_cons, List.append_assoc]

theorem foldl_flatMap' {α β γ} (f : γ → β → γ) (g : α → List β) : ∀ (l : List α) (s : γ), (l.flatMap g).foldl f s = l.foldl (fun s a => (g a).foldl f s) s
  | [], _ => rfl
  | a :: l, s => by rw [List.flatMap_cons, List.foldl_append, foldl_flatMap' f g l, List.foldl_cons]

theorem mdPad_nest (n N : Nat) (hn : 0 < n) (hN : N % n = 0) (m : Bytes) (mk : Byte) :
    fullBlocks n (mdPad n mk [] m) = (fullBlocks N m).flatMap (fullBlocks n) ++ fullBlocks n (mdPad n mk [] (restBlock N m)) := by
  rw [← fullBlocks_nest n N hn hN _ _ (fun b hb => mem_fullBlocks_length N m b hb)]
  congr 1
  have hl : m.length % n = (restBlock N m).length % n := by
    rw [restBlock_length]
    conv => lhs; rw [← Nat.div_add_mod m.length N]
    rw [Nat.add_mod, Nat.mul_mod, hN, Nat.zero_mul, Nat.zero_mod, Nat.zero_add, Nat.mod_mod]
  have hl1 : (m.length + 1 + ([] : Bytes).length) % n = ((restBlock N m).length + 1 + ([] : Bytes).length) % n := by
    rw [List.length_nil, Nat.add_zero, Nat.add_zero, Nat.add_mod, hl, ← Nat.add_mod]
  unfold mdPad
  rw [hl1, ← List.append_assoc (fullBlocks N m).flatten, fullBlocks_flatten_append_rest]

theorem fullBlocks_zeros (n : Nat) (hn : 0 < n) (y : Bytes) (hy : y.length % n = 0) : ∀ c, fullBlocks n (y ++ zeros (n * c)) = fullBlocks n y ++ List.replicate c (zeros n)
  | 0 => by simp [zeros]
  | c + 1 => by
    have : zeros (n * (c + 1)) = zeros (n * c) ++ zeros n := by unfold zeros; rw [List.replicate_append_replicate, Nat.mul_succ]
    rw [this, ← List.append_assoc, fullBlocks_append n _ _ hn (by rw [List.length_append, zeros_length, Nat.add_mod, hy, Nat.mul_mod_right, Nat.zero_add, Nat.zero_mod]),
      fullBlocks_zeros n hn y hy c, fullBlocks_one n (zeros n) hn (zeros_length n), List.append_assoc, List.replicate_succ']

def iter (k : Nat) (S : State w) : State w := (List.range k).foldl (fun s _ => round s) S
theorem iter_succ (k : Nat) (S : State w) : iter (k + 1) S = round (iter k S) := by unfold iter; rw [List.range_succ, List.foldl_append]; rfl
theorem iter_add (a b : Nat) (S : State w) : iter (a + b) S = iter b (iter a S) := by
  induction b with
  | zero => rfl
  | succ b ih => rw [Nat.add_succ, iter_succ, ih, iter_succ]

theorem round_length (S : State w) : (round S).a.length = 19 := by unfold round; simp
theorem inject_length {Q : Params w} (S : State w) (b : Bytes) : (inject Q S b).a.length = 19 := round_length _
theorem fold_length {Q : Params w} (l : List Bytes) (S : State w) (h : S.a.length = 19) : (l.foldl (inject Q) S).a.length = 19 := by
  induction l generalizing S with
  | nil => exact h
  | cons b l ih => exact ih _ (inject_length _ _)

theorem inject_zeros {P : Pkg w} {Q : Params w} (hf : Fit P Q) (S : State w) (h : S.a.length = 19) (n : Nat) : inject Q S (zeros n) = round S := by
  unfold inject
  congr 1
  have e : (fun i => Q.get (zeros n) (i * Q.bytes)) = fun _ => 0 := by funext i; rw [← hf.get, hf.get_zero]
  rw [e]
  unfold Spec.RadioGatun.input
  obtain ⟨a, b⟩ := S
  dsimp only at h ⊢
  congr 1
  · apply ext_getD
    · simp [h]
    · intro i hi
      rw [List.length_map, List.length_range] at hi
      rw [getD_map_range _ _ _ _ hi, xor_zero', ite_self]
      unfold st; rw [Nat.mod_eq_of_lt hi]
  · funext j i
    by_cases hj : j = 0
    · rw [if_pos hj, xor_zero', hj]
    · rw [if_neg hj]

theorem fold_zeros {P : Pkg w} {Q : Params w} (hf : Fit P Q) (n c : Nat) (S : State w) (h : S.a.length = 19) : (List.replicate c (zeros n)).foldl (inject Q) S = iter c S := by
  induction c with
  | zero => rfl
  | succ c ih =>
    rw [List.replicate_succ', List.foldl_append, ih, iter_succ, List.foldl_cons, List.foldl_nil, inject_zeros hf _ _ n]
    cases c with
    | zero => exact h
    | succ c => rw [iter_succ]; exact round_length _

theorem st_getD (a : List (BitVec w)) (i : Nat) (h : i < 19) : a.getD i 0 = st a i := by unfold st; rw [Nat.mod_eq_of_lt h]

theorem blank_eq {P : Pkg w} {Q : Params w} (hf : Fit P Q) (c : Core w) (S : State w) (h : Rel 0 c S) (r : Nat) : blank P c (r + P.outs) = output Q P.outs (iter r S) := by
  have := forLoop_inv (P := fun k (s : Core w × Bytes) => Rel 0 s.1 (iter k S) ∧ (k ≤ r → s.2 = []) ∧ (r ≤ k → s.2 ++ output Q (r + P.outs - k) (iter k S) = output Q P.outs (iter r S)))
    (a := 0) (b := r + P.outs) (s := (c, [])) (body := fun (s : Core w × Bytes) k =>
    let c := blankTurn P s.1
    (c, if r + P.outs - k ≤ P.outs then s.2 ++ P.put (c.a.getD 1 0) ++ P.put (c.a.getD 2 0) else s.2)) (Nat.zero_le _)
    ⟨h, fun _ => rfl, fun h0 => by
      have : r = 0 := by omega
      subst this; show [] ++ output Q (0 + P.outs - 0) _ = _; rw [Nat.zero_add]; rfl⟩ (by
      intro k s _ hk ⟨h1, h2, h3⟩
      have hb := blank_rel hf _ _ h1
      rw [← iter_succ] at hb
      refine ⟨hb, ?_, ?_⟩
      · intro hkr
        dsimp only
        rw [if_neg (by omega)]; exact h2 (by omega)
      · intro hkr
        dsimp only
        by_cases hc : r ≤ k
        · rw [if_pos (by omega), hb.a, hf.put, st_getD _ _ (by omega), st_getD _ _ (by omega), ← h3 hc, show r + P.outs - k = (r + P.outs - (k + 1)) + 1 by omega]
          conv => rhs; unfold output
          rw [← iter_succ, List.append_assoc, List.append_assoc, List.append_assoc]
        · have : r = k + 1 := by omega
          rw [if_neg (by omega), h2 (by omega), List.nil_append, show r + P.outs - (k + 1) = P.outs by omega, this])
  have h3 := this.2.2 (by omega)
  rw [show r + P.outs - (r + P.outs) = 0 by omega, output, List.append_nil] at h3
  exact h3

theorem countBlank_eq (P : Pkg w) (h0 : 0 < P.wb) : ∀ fuel ptr num, (P.blockSize - ptr) / (3 * P.wb) < fuel → ptr ≤ P.blockSize → countBlank P fuel ptr num = num - (P.blockSize - ptr) / (3 * P.wb)
  | 0, _, _, h, _ => absurd h (Nat.not_lt_zero _)
  | fuel + 1, ptr, num, h, hp => by
    unfold countBlank
    by_cases hc : ptr + 3 * P.wb > P.blockSize
    · rw [if_pos hc, Nat.div_eq_of_lt (by omega), Nat.sub_zero]
    · have e : P.blockSize - ptr = (P.blockSize - (ptr + 3 * P.wb)) + 3 * P.wb := by omega
      rw [e, Nat.add_div_right _ (by omega)] at h
      rw [if_neg hc, countBlank_eq P h0 fuel _ _ (by omega) (by omega), e, Nat.add_div_right _ (by omega), Nat.sub_sub, Nat.add_comm 1]

def Holds (P : Pkg w) (Q : Params w) (c : Core w) (m : Bytes) : Prop :=
  Rel 0 c ((fullBlocks P.blockSize m).foldl (fun s B => (fullBlocks (3 * P.wb) B).foldl (inject Q) s) Spec.RadioGatun.init)

structure Rep (P : Pkg w) (Q : Params w) (d : Digest w) (m : Bytes) : Prop where
  loop : LoopRep P.blockSize P.blockSize (Holds P Q) d.c d.x d.nx m

theorem init_rel : Rel 0 (⟨List.replicate 19 0, List.replicate 39 0⟩ : Core w) Spec.RadioGatun.init := by
  refine ⟨rfl, List.length_replicate, List.length_replicate, ?_⟩
  intro j i hj hi
  show (0 : BitVec w) = (List.replicate 39 0).getD _ 0
  rw [List.getD_eq_getElem?_getD, List.getElem?_replicate, if_pos (by omega)]; rfl

theorem reset_rep (P : Pkg w) (Q : Params w) : Rep P Q (reset P) [] := ⟨LoopRep.init _ _ _ _ (by
  unfold Holds
  rw [fullBlocks_nil]
  exact init_rel)⟩

theorem holds_step {P : Pkg w} {Q : Params w} (hf : Fit P Q) (c : Core w) (m p x : Bytes) (h : Holds P Q c m) (hx : x.length = P.blockSize)
    (hb : fullBlocks P.blockSize (m ++ p) = fullBlocks P.blockSize m ++ [x]) : Holds P Q (processBlock P c x) (m ++ p) := by
  unfold Holds at *
  rw [hb, List.foldl_append, List.foldl_cons, List.foldl_nil]
  exact processBlock_rel hf x hx c _ h

theorem bs_pos {P : Pkg w} {Q : Params w} (hf : Fit P Q) : 0 < P.blockSize := by unfold Pkg.blockSize; have := hf.wb0; omega

theorem write_rep {P : Pkg w} {Q : Params w} (hf : Fit P Q) (d : Digest w) (m p : Bytes) (h : Rep P Q d m) : Rep P Q (d.write P p) (m ++ p) := by
  refine ⟨?_⟩
  refine loopWrite_rep P.blockSize P.blockSize (bs_pos hf) (Nat.le_refl _) (Holds P Q) (fun c x _ => processBlock P c x) (fun c _ => c) ?_ ?_ (p.length + 1) d.c d.x d.nx m p h.loop (by omega)
  · intro s x m p hR hx hl ht hb hr
    rw [List.take_of_length_le (l := x) (Nat.le_of_eq hx)] at ht
    rw [← ht] at hb
    exact holds_step hf s m p x hR hx hb
  · intro s m p hR hl hb hr
    unfold Holds at *
    rw [hb]; exact hR

theorem fill_eq (x : Bytes) (n L : Nat) (hx : x.length = L) (hn : n ≤ L) : forLoop n L (fun x i => x.set i 0) x = x.take n ++ zeros (L - n) := by
  have h := forLoop_inv (P := fun k (y : Bytes) => y = x.take n ++ zeros (k - n) ++ x.drop k) (a := n) (b := L) (s := x) (body := fun x i => x.set i 0) hn
    (by rw [Nat.sub_self]; show x = x.take n ++ [] ++ x.drop n; rw [List.append_nil, List.take_append_drop]) (by
      intro k y hk1 hk2 hy
      rw [hy, List.set_append_right _ _ (by rw [List.length_append, List.length_take, zeros_length]; omega), List.length_append, List.length_take, zeros_length,
        show k - (min n x.length + (k - n)) = 0 by omega, List.drop_eq_getElem_cons (by omega), List.set_cons_zero, show k + 1 - n = (k - n) + 1 by omega]
      have : zeros (k - n + 1) = zeros (k - n) ++ [0] := by unfold zeros; rw [List.replicate_succ']; rfl
      rw [this]; simp)
  rw [h, List.drop_eq_nil_of_le (by omega), List.append_nil]

theorem checkSum_eq {P : Pkg w} {Q : Params w} (hf : Fit P Q) (d : Digest w) (m : Bytes) (h : Rep P Q d m) : d.checkSum P = Spec.RadioGatun.hash Q m := by
  have hl := h.loop
  have hw := hf.wb0
  have hlt := hl.nx_lt (bs_pos hf)
  have hrl : (restBlock P.blockSize m).length = d.nx := hl.hnx.symm
  have hbs : P.blockSize = 3 * P.wb * 13 := by unfold Pkg.blockSize; omega
  have hn : 0 < 3 * P.wb := by omega
  generalize hnn : 3 * P.wb = n at *
  -- the number of blank blocks at the end
  obtain ⟨c, hc⟩ : ∃ c, c = (P.blockSize - (d.nx + 1)) / n := ⟨_, rfl⟩
  have hc12 : c < 13 := by rw [hc]; apply Nat.div_lt_of_lt_mul; rw [hbs]; rw [hbs] at hlt; omega
  have hpadl : (P.blockSize - (d.nx + 1)) % n = (n - (d.nx + 1) % n) % n := by
    have e1 := Nat.div_add_mod (P.blockSize - (d.nx + 1)) n
    have e2 := Nat.div_add_mod (d.nx + 1) n
    have e3 := Nat.mod_lt (P.blockSize - (d.nx + 1)) hn
    have e4 := Nat.mod_lt (d.nx + 1) hn
    by_cases h0 : (d.nx + 1) % n = 0
    · rw [h0, Nat.sub_zero, Nat.mod_self]
      have : P.blockSize - (d.nx + 1) = n * (13 - (d.nx + 1) / n) := by rw [Nat.mul_sub, hbs]; omega
      rw [this, Nat.mul_mod_right]
    · rw [Nat.mod_eq_of_lt (a := n - (d.nx + 1) % n) (by omega)]
      have hq : (d.nx + 1) / n ≤ 12 := by
        have : (d.nx + 1) / n < 13 := by
          apply Classical.byContradiction; intro hcon
          have : n * 13 ≤ n * ((d.nx + 1) / n) := Nat.mul_le_mul_left _ (by omega)
          omega
        omega
      have : P.blockSize - (d.nx + 1) = (n - (d.nx + 1) % n) + n * (12 - (d.nx + 1) / n) := by
        rw [Nat.mul_sub, hbs]
        have : n * ((d.nx + 1) / n) ≤ n * 12 := Nat.mul_le_mul_left _ hq
        omega
      rw [this, Nat.add_mul_mod_self_left, Nat.mod_eq_of_lt (by omega)]
  have hx : forLoop (d.nx + 1) P.blockSize (fun x i => x.set i 0) (d.x.set d.nx 0x01) = mdPad n 0x01 [] (restBlock P.blockSize m) ++ zeros (n * c) := by
    rw [fill_eq _ _ _ (by rw [List.length_set]; exact hl.xl) (by omega)]
    have : (d.x.set d.nx 0x01).take (d.nx + 1) = restBlock P.blockSize m ++ [0x01] := by
      rw [List.take_add_one, List.take_set_of_le (Nat.le_refl _), hl.pend]
      have := hl.xl
      simp [show d.nx < d.x.length by omega]
    rw [this]
    unfold mdPad
    rw [List.length_nil, Nat.add_zero, hrl, ← hpadl, List.append_nil, List.append_assoc, List.append_assoc]
    congr 1
    rw [List.cons_append]
    congr 1
    rw [List.nil_append]
    show zeros _ = zeros _ ++ zeros _
    unfold zeros
    rw [List.replicate_append_replicate, hc, Nat.mod_add_div]
  have hyl : (mdPad n 0x01 [] (restBlock P.blockSize m)).length % n = 0 := mdPad_length _ _ _ _ hn
  have hst := hl.st
  have h1 := processBlock_rel hf (mdPad n 0x01 [] (restBlock P.blockSize m) ++ zeros (n * c)) (by
    rw [← hx, fill_eq _ _ _ (by rw [List.length_set]; exact hl.xl) (by omega), List.length_append, List.length_take, zeros_length, List.length_set, hl.xl]; omega) d.c _ hst
  unfold Digest.checkSum Spec.RadioGatun.hash
  dsimp only
  rw [hx, countBlank_eq P hw 14 _ _ (by rw [hnn, ← hc]; omega) (by omega), hnn, ← hc, ← hf.wb, hnn, ← hf.outs]
  rw [hnn, fullBlocks_zeros n hn _ hyl, List.foldl_append] at h1
  rw [mdPad_nest n P.blockSize hn (by rw [hbs, Nat.mul_mod_right]) m, List.foldl_append, foldl_flatMap']
  generalize hS : (fullBlocks n (mdPad n 0x01 [] (restBlock P.blockSize m))).foldl (inject Q) _ = S at h1 ⊢
  have hSl : S.a.length = 19 := by
    rw [← hS]
    apply fold_length
    have e := hst.a
    rw [hnn] at e
    rw [← e]; exact hst.al
  rw [fold_zeros hf _ _ _ hSl] at h1
  have hnum := hf.num
  rw [hnum, show 16 + P.outs - c = (16 - c) + P.outs by omega, blank_eq hf _ _ h1, ← iter_add, show c + (16 - c) = 16 by omega]
  rfl

end Verif.RadioGatun

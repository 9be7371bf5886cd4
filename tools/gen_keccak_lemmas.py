Q=[list(range(25)),
[0, 11, 22, 8, 19, 15, 1, 12, 23, 9, 5, 16, 2, 13, 24, 20, 6, 17, 3, 14, 10, 21, 7, 18, 4],
[0, 16, 7, 23, 14, 20, 11, 2, 18, 9, 15, 6, 22, 13, 4, 10, 1, 17, 8, 24, 5, 21, 12, 3, 19],
[0, 6, 12, 18, 24, 10, 16, 22, 3, 9, 20, 1, 7, 13, 19, 5, 11, 17, 23, 4, 15, 21, 2, 8, 14],
list(range(25))]
vs=[f'a{i}' for i in range(25)]
A='['+', '.join(vs)+']'
o='''import Verif.Spec.Keccak
import Verif.Model.Keccak
import Verif.SetLoop
/-
The in-place rounds of k12/keccakf.go are the rounds of FIPS 202.
-/
namespace Verif.Keccak
open Verif.Spec

theorem list25 {α} (A : List α) (h : A.length = 25) : ∃ '''+' '.join(vs)+''' : α, A = '''+A+''' := by
  match A, h with
  | '''+A+''', _ => exact ⟨'''+', '.join('_' for _ in vs)+''', rfl⟩

theorem offsets : (List.range 25).map (fun i => Keccak.offset (i % 5) (i / 5)) =
    [0, 1, 62, 28, 27, 36, 44, 6, 55, 20, 3, 10, 43, 25, 39, 41, 45, 15, 21, 8, 18, 2, 61, 56, 14] := by decide +kernel

theorem range25 : List.range 25 = '''+str(list(range(25)))+''' := by decide

'''
off=[0, 1, 62, 28, 27, 36, 44, 6, 55, 20, 3, 10, 43, 25, 39, 41, 45, 15, 21, 8, 18, 2, 61, 56, 14]
for i in range(25):
    o+=f'theorem off{i} : Keccak.offset ({i} % 5) ({i} / 5) = {off[i]} := by decide +kernel\n'
o+='''
theorem rotl_go (t : U64) (n : Nat) (h : 0 < n) (h2 : n < 64) : t.rotateLeft n = (t <<< n ||| t >>> (64 - n)) := by
  rw [BitVec.rotateLeft_def, Nat.mod_eq_of_lt h2]

/-- Explicit form of a round. -/
theorem theta_eq ('''+' '.join(vs)+''' : U64) : Keccak.theta '''+A+''' =
    let C0 := '''+' ^^^ '.join(f'a{0+5*y}' for y in range(5))+'\n'
for x in range(1,5): o+=f'    let C{x} := '+' ^^^ '.join(f'a{x+5*y}' for y in range(5))+'\n'
for x in range(5): o+=f'    let D{x} := C{(x+4)%5} ^^^ (C{(x+1)%5} <<< 1 ||| C{(x+1)%5} >>> (64 - 1))\n'
o+='    ['+', '.join(f'a{i} ^^^ D{i%5}' for i in range(25))+'] := by\n'
o+='''  have h : ∀ t : U64, t.rotateLeft 1 = (t <<< 1 ||| t >>> (64 - 1)) := fun t => rotl_go t 1 (by omega) (by omega)
  simp only [Keccak.theta, Keccak.mk, range25, List.map_cons, List.map_nil, Keccak.D, Keccak.C, h]
  rfl
'''
o+='theorem rho_eq ('+' '.join(vs)+' : U64) : Keccak.rho '+A+' =\n    ['+', '.join(('a0' if off[i]==0 else f'a{i} <<< {off[i]} ||| a{i} >>> (64 - {off[i]})') for i in range(25))+'] := by\n'
o+='''  have h0 : ∀ t : U64, t.rotateLeft 0 = t := fun t => by rw [BitVec.rotateLeft_def]; ext i; simp
  simp only [Keccak.rho, Keccak.mk, range25, List.map_cons, List.map_nil, '''+', '.join(f'off{i}' for i in range(25))+''', h0]
'''
o+='  simp only ['+', '.join(f'rotl_go _ {i} (by omega) (by omega)' for i in sorted(set(off)) if i)+']\n  rfl\n'
pi=[(i%5+3*(i//5))%5+5*(i%5) for i in range(25)]
o+='theorem pi_eq ('+' '.join(vs)+' : U64) : Keccak.pi '+A+' =\n    ['+', '.join(f'a{pi[i]}' for i in range(25))+'] := rfl\n'
o+='theorem chi_eq ('+' '.join(vs)+' : U64) : Keccak.chi '+A+' =\n    ['+', '.join(f'a{i} ^^^ (a{(i%5+2)%5+5*(i//5)} &&& ~~~a{(i%5+1)%5+5*(i//5)})' for i in range(25))+'] := by\n'
o+='''  simp only [Keccak.chi, Keccak.mk, range25, List.map_cons, List.map_nil, BitVec.and_comm (~~~ _)]
  rfl
'''
o+='theorem iota_eq (c : U64) ('+' '.join(vs)+' : U64) : Keccak.iota c '+A+' =\n    ['+', '.join((f'a{i}' if i else 'a0 ^^^ c') for i in range(25))+'] := rfl\n'
o+='''
/-- The lanes in the order in which the code holds them. -/
def arr (Q : List Nat) (A : List U64) : List U64 := Q.map fun i => A.getD i 0
'''
for k in range(5):
    if k<4: o+=f'def Q{k} : List Nat := {Q[k]}\n'
o+='def Q4 : List Nat := Q0\n'
def hc(k):
    if k==0: return ''
    r=''
    for x in range(5):
        std=' ^^^ '.join(f'a{x+5*y}' for y in range(5))
        pos=[Q[k].index(x+5*y) for y in range(5)]
        assert len(set(p%5 for p in pos))==1,pos
        cc=pos[0]%5
        code=' ^^^ '.join(f'a{Q[k][cc+5*y]}' for y in range(5))
        r+=f'  rw [show {std} = {code} by ac_rfl]\n'
    return r
for k in range(4):
    o+=f'''
theorem round{k+1}_eq (c : U64) (A : List U64) (h : A.length = 25) : round{k+1} c (arr Q{k} A) = arr Q{k+1} (Keccak.round c A) := by
  obtain ⟨{', '.join(vs)}, rfl⟩ := list25 A h
  rw [show arr Q{k} {A} = [{', '.join(f'a{Q[k][i]}' for i in range(25))}] from rfl]
  unfold Keccak.round
  rw [theta_eq]
  dsimp only
{hc(k)}  rw [rho_eq, pi_eq, chi_eq, iota_eq]
  rfl
'''
o+='''
theorem round_length (c : U64) (A : List U64) : (Keccak.round c A).length = 25 := by
  unfold Keccak.round Keccak.iota Keccak.mk; rw [List.length_map, List.length_range]
theorem arr_id (A : List U64) (h : A.length = 25) : arr Q0 A = A := by
  obtain ⟨'''+', '.join(vs)+''', rfl⟩ := list25 A h
  rfl

theorem rc_eq : rc = (List.range 24).map Keccak.RC := by decide +kernel

/-- Four rounds of the loop. -/
theorem quad_eq (c1 c2 c3 c4 : U64) (A : List U64) (h : A.length = 25) :
    round4 c4 (round3 c3 (round2 c2 (round1 c1 A))) = Keccak.round c4 (Keccak.round c3 (Keccak.round c2 (Keccak.round c1 A))) := by
  conv => lhs; rw [← arr_id A h]
  rw [round1_eq c1 A h, round2_eq _ _ (round_length ..), round3_eq _ _ (round_length ..), round4_eq _ _ (round_length ..)]
  exact arr_id _ (round_length ..)

theorem rc_get (i : Nat) (h : i < 24) : rc.getD i 0 = Keccak.RC i := by
  rw [rc_eq, List.getD_eq_getElem?_getD, List.getElem?_map, List.getElem?_range h]; rfl

/-- `keccakF1600(a, 12)` is Keccak-p[1600, 12]. -/
theorem keccakF_eq (A : List U64) (h : A.length = 25) : keccakF1600 12 A = Keccak.p 12 A := by
  have e : keccakF1600 12 A =
    (let q := fun (A : List U64) (i : Nat) => round4 (rc.getD (i + 3) 0) (round3 (rc.getD (i + 2) 0) (round2 (rc.getD (i + 1) 0) (round1 (rc.getD i 0) A)))
     q (q (q A 12) 16) 20) := rfl
  rw [e]
  dsimp only
  rw [quad_eq _ _ _ _ _ h, quad_eq _ _ _ _ _ (round_length ..), quad_eq _ _ _ _ _ (round_length ..)]
  simp only [rc_get, Nat.reduceAdd, Nat.reduceLT]
  rfl
theorem p_length (A : List U64) (h : A.length = 25) : (Keccak.p 12 A).length = 25 := by
  rw [← keccakF_eq A h]
  have : keccakF1600 12 A = Keccak.p 12 A := keccakF_eq A h
  rw [this]
  have e : Keccak.p 12 A = Keccak.round (Keccak.RC 23) ((List.range' 12 11).foldl (fun A i => Keccak.round (Keccak.RC i) A) A) := rfl
  rw [e]; exact round_length ..

end Verif.Keccak
'''
open('/verif/lean/Verif/Lemmas/Keccak.lean','w').write(o)

import re
out=[]
def parse_stmt(ls,i,r):
    pass
def parse(fn,n):
    src=open(f'/repo/skein/threefish/threefish{fn}_ref.go').read().split('\n')
    def find(s,start=0):
        for k in range(start,len(src)):
            if s in src[k]: return k
    def body(start,end):
        res=[];k=start
        while k<end:
            l=src[k].strip()
            if not l: k+=1; continue
            m=re.fullmatch(r'b(\d+) ([+-])= keys\[(?:\(r\+(\d+)\)|(r))%(\d+)\](?: \+ (tweak\[(?:\(r\+(\d+)\)|(r))%3\]|uint64\(r\)))?',l)
            if m:
                assert int(m[5])==n+1
                ko=int(m[3]) if m[3] else 0
                t='none';c='false'
                if m[6]:
                    if m[6]=='uint64(r)': c='true'
                    else: t=f'(some {int(m[7]) if m[7] else 0})'
                res.append(f".{'key' if m[2]=='+' else 'unkey'} {m[1]} {ko} {t} {c}"); k+=1; continue
            m=re.fullmatch(r'b(\d+) ([+-])= keys\[(\d+)\](?: \+ (?:tweak\[(\d+)\]|uint64\((\d+)\)|(\d+)))?',l)
            if m:
                t=f'(some {m[4]})' if m[4] else 'none'; cc=m[5] or m[6]; c=f"(some {cc})" if cc else "none"
                res.append(f".{'keyAbs' if m[2]=='+' else 'unkeyAbs'} {m[1]} {m[3]} {t} {c}"); k+=1; continue
            m=re.fullmatch(r'b(\d+) \+= b(\d+)',l)
            if m:
                a,b=m[1],m[2]
                l2=src[k+1].strip()
                m2=re.fullmatch(r'b(\d+) = \(\(?b(\d+) ?<< ?(\d+)\)? \| \(?b(\d+) ?>> ?\(64 ?- ?(\d+)\)\)?\) \^ b(\d+)',l2)
                assert m2 and m2[1]==m2[2]==m2[4]==b and m2[6]==a and m2[3]==m2[5],(l,l2)
                res.append(f".mix {a} {b} {m2[3]}"); k+=2; continue
            m=re.fullmatch(r'tmp = b(\d+) \^ b(\d+)',l)
            if m:
                b,a=m[1],m[2]
                l2=src[k+1].strip(); l3=src[k+2].strip()
                m2=re.fullmatch(r'b(\d+) = \(?tmp ?>> ?(\d+)\)? \| \(?tmp ?<< ?\(64 ?- ?(\d+)\)\)?',l2)
                m3=re.fullmatch(r'b(\d+) -= b(\d+)',l3)
                assert m2 and m3 and m2[1]==b and m3[1]==a and m3[2]==b and m2[2]==m2[3],(l,l2,l3)
                res.append(f".unmix {a} {b} {m2[2]}"); k+=3; continue
            raise Exception((k,l))
        return res
    for nm in ['Encrypt','Decrypt']:
        f=find(f'func {nm}{fn}')
        lo=find('for r :=',f); loopline=src[lo].strip()
        inc=find('r++' if nm=='Encrypt' else 'r--',lo+1)
        # end of loop
        e=lo
        for k in range(inc,len(src)):
            if src[k]=='    }': e=k;break
        fin=find('block[0], block[1]',e)
        A=body(lo+1,inc);B=body(inc+1,e);F=body(e+1,fin)
        print(loopline,len(A),len(B),len(F))
        for suf,l,(s,t) in [('A',A,(lo+2,inc)),('B',B,(inc+2,e)),('Fin',F,(e+2,fin))]:
            out.append(f"/-- `{nm}{fn}`, threefish{fn}_ref.go:{s}-{t}"+(f" (inside `{loopline[:-2]}`)" if suf!='Fin' else " (after the loop)")+". -/")
            out.append(f"def {nm[:3].lower()}{fn}{suf} : List Instr := [")
            for i in range(0,len(l),4): out.append("  "+", ".join(l[i:i+4])+("," if i+4<len(l) else "]"))
            out.append("")
for fn,n in [(256,4),(512,8),(1024,16)]: parse(fn,n)
hdr='''import Verif.Basic
import Verif.Words
/-
Model of skein/threefish.  The unrolled bodies of Encrypt*/Decrypt* are transcribed statement by
statement into instruction lists (tools/gen_threefish.py, which checks the shape of every statement
it reads); the instructions are given their meaning below.
-/
namespace Verif.Threefish

/-- The local variables `b0`, `b1`, ... -/
abbrev Regs := Nat → U64
/-- Assignment to `b_i`. -/
def upd (b : Regs) (i : Nat) (x : U64) : Regs := fun k => if k = i then x else b k

/-- A statement group of the unrolled code. -/
inductive Instr where
  /-- `b_w += keys[(r+k)%n1] + tweak[(r+t)%3] + uint64(r)` (the last two when present) -/
  | key (w k : Nat) (t : Option Nat) (c : Bool)
  /-- `b_w -= ...` -/
  | unkey (w k : Nat) (t : Option Nat) (c : Bool)
  /-- `b_w += keys[k] + tweak[t] + uint64(c)` -/
  | keyAbs (w k : Nat) (t c : Option Nat)
  /-- `b_w -= keys[k] + tweak[t] + uint64(c)` -/
  | unkeyAbs (w k : Nat) (t c : Option Nat)
  /-- `b_a += b_b; b_b = (b_b << rot | b_b >> (64-rot)) ^ b_a` -/
  | mix (a b rot : Nat)
  /-- `tmp = b_b ^ b_a; b_b = tmp >> rot | tmp << (64-rot); b_a -= b_b` -/
  | unmix (a b rot : Nat)
  deriving DecidableEq

/-- The key and tweak words added by a key statement. -/
def keyVal (n1 : Nat) (K T : Nat → U64) (r k : Nat) (t : Option Nat) (c : Bool) : U64 :=
  K ((r + k) % n1) + (match t with | some t => T ((r + t) % 3) | none => if c then BitVec.ofNat 64 r else 0#64)
/-- The same with literal indices. -/
def keyValAbs (K T : Nat → U64) (k : Nat) (t c : Option Nat) : U64 :=
  K k + (match t with | some t => T t | none => match c with | some c => BitVec.ofNat 64 c | none => 0#64)

/-- One statement group; `n1` is the number of key words, `r` the loop variable. -/
def step (n1 : Nat) (K T : Nat → U64) (r : Nat) (b : Regs) : Instr → Regs
  | .key w k t c => upd b w (b w + keyVal n1 K T r k t c)
  | .unkey w k t c => upd b w (b w - keyVal n1 K T r k t c)
  | .keyAbs w k t c => upd b w (b w + keyValAbs K T k t c)
  | .unkeyAbs w k t c => upd b w (b w - keyValAbs K T k t c)
  | .mix x y rot =>
    let b := upd b x (b x + b y)
    upd b y (((b y <<< rot) ||| (b y >>> (64 - rot))) ^^^ b x)
  | .unmix x y rot =>
    let tmp := b y ^^^ b x
    let b := upd b y ((tmp >>> rot) ||| (tmp <<< (64 - rot)))
    upd b x (b x - b y)

/-- A straight-line piece of code. -/
def exec (n1 : Nat) (K T : Nat → U64) (r : Nat) (l : List Instr) (b : Regs) : Regs :=
  l.foldl (step n1 K T r) b

'''
ftr='''/-- One of the three ciphers: word count, the last value of the loop variable, and the code. -/
structure Code where
  n : Nat
  last : Nat
  encA : List Instr
  encB : List Instr
  encFin : List Instr
  decA : List Instr
  decB : List Instr
  decFin : List Instr

/-- threefish256_ref.go. -/
def code256 : Code := ⟨4, 18, enc256A, enc256B, enc256Fin, dec256A, dec256B, dec256Fin⟩
/-- threefish512_ref.go. -/
def code512 : Code := ⟨8, 18, enc512A, enc512B, enc512Fin, dec512A, dec512B, dec512Fin⟩
/-- threefish1024_ref.go. -/
def code1024 : Code := ⟨16, 20, enc1024A, enc1024B, enc1024Fin, dec1024A, dec1024B, dec1024Fin⟩

/-- Load the words of a block (threefish256_ref.go:49 and its siblings). -/
def load (l : List U64) : Nat → U64 := fun i => l.getD i 0#64

/-- `Encrypt256/512/1024` (threefish256_ref.go:47-110, threefish512_ref.go:47-156,
threefish1024_ref.go:48-249): the loop runs for r = 0, 2, ..., last-2, with `r++` in the middle. -/
def encryptWords (c : Code) (block keys tweak : List U64) : List U64 :=
  let K := load keys
  let T := load tweak
  let b := forLoop 0 (c.last / 2) (fun b i =>
    exec (c.n + 1) K T (2 * i + 1) c.encB (exec (c.n + 1) K T (2 * i) c.encA b)) (load block)
  let b := exec (c.n + 1) K T 0 c.encFin b
  (List.range c.n).map b

/-- `Decrypt256/512/1024` (threefish256_ref.go:115-195, threefish512_ref.go:161-303,
threefish1024_ref.go:254-520): the loop runs for r = last, last-2, ..., 2, with `r--` in the middle. -/
def decryptWords (c : Code) (block keys tweak : List U64) : List U64 :=
  let K := load keys
  let T := load tweak
  let b := forLoop 0 (c.last / 2) (fun b i =>
    exec (c.n + 1) K T (c.last - 2 * i - 1) c.decB (exec (c.n + 1) K T (c.last - 2 * i) c.decA b)) (load block)
  let b := exec (c.n + 1) K T 0 c.decFin b
  (List.range c.n).map b

/-- `C240` (threefish.go:19). -/
def C240 : U64 := 0x1bd11bdaa9fc1a22

/-- `bytesToBlock256/512/1024` (threefish_ref.go:5-69; threefish_amd64.go does the same by
reinterpreting memory on a little-endian machine). -/
def bytesToBlock (n : Nat) (src : Bytes) : List U64 := (List.range n).map fun i => getLE64 src (8 * i)
/-- `block256ToBytes` and its siblings (threefish_ref.go:13-25). -/
def blockToBytes (block : List U64) : Bytes := block.flatMap le64

/-- A cipher object (threefish.go:61-89). -/
structure Cipher where
  code : Code
  keys : List U64
  tweak : List U64

/-- `newCipher256/512/1024` (threefish256_ref.go:23-42 and siblings). -/
def newCipher (c : Code) (tweak key : Bytes) : Cipher :=
  let t0 := getLE64 tweak 0
  let t1 := getLE64 tweak 8
  let ks := bytesToBlock c.n key
  { code := c, keys := ks ++ [ks.foldl (· ^^^ ·) C240], tweak := [t0, t1, t0 ^^^ t1] }

/-- `NewCipher` (threefish.go:37-48); `none` is the error. -/
def new (tweak key : Bytes) : Option Cipher :=
  if key.length = 32 then some (newCipher code256 tweak key)
  else if key.length = 64 then some (newCipher code512 tweak key)
  else if key.length = 128 then some (newCipher code1024 tweak key)
  else none

/-- `Encrypt(dst, src)`: what is written to `dst` (threefish256_ref.go:3-11). -/
def Cipher.encrypt (c : Cipher) (src : Bytes) : Bytes :=
  blockToBytes (encryptWords c.code (bytesToBlock c.code.n src) c.keys c.tweak)
/-- `Decrypt(dst, src)` (threefish256_ref.go:13-21). -/
def Cipher.decrypt (c : Cipher) (src : Bytes) : Bytes :=
  blockToBytes (decryptWords c.code (bytesToBlock c.code.n src) c.keys c.tweak)

end Verif.Threefish
'''
open('/verif/lean/Verif/Model/Threefish.lean','w').write(hdr+"\n".join(out)+"\n"+ftr)

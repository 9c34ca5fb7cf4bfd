"""Compares the Lean model with a line-by-line transliteration of the Rust source into Python on random command lines.

Usage: python3 tools/differential.py SEED COUNT     (after `lake build` in lean/)

A test of the model, not a proof: it looks for places where the model and a second reading of the source differ."""
import random,json,subprocess,sys,os,tempfile
here=os.path.dirname(os.path.abspath(__file__))
sys.path.insert(0,here)
import transliteration as rip
DRIVER = r'''
import Lean.Data.Json
import Verif.Conformance.Eval
import Verif.Model.Messages
open Ripcalc Ripcalc.Conformance Lean
def tbl : CharTable where
  printable := fun c => !((0x7F ≤ c.toNat && c.toNat < 0xA0) || c.toNat == 0x2028 || c.toNat == 0x2029)
  hidden := by intro c h; rcases h with ⟨a, b⟩ | h | h <;> simp_all
def colName (c : Color) : String := ((toString (repr c)).splitOn ".").getLast!
def evJson : OutEv → Json
  | .out s => .arr #[.str "out", .str (String.ofList s)]
  | .styled c s => .arr #[.str "styled", .str (colName c), .str (String.ofList s)]
  | .err m => .arr #[.str "err", .str (String.ofList (m.text tbl))]
def runOne (j : Json) : Json := Id.run do
  let args := match j.getObjVal? "args" with | .ok (.arr a) => a.toList.map (fun x => match x with | .str s => s.toList | _ => []) | _ => []
  let colors := j.getObjValD "colors" == .bool true
  let pr := if j.getObjValD "checked" == .bool true then Profile.checked else Profile.wrapping
  let r := doMainE 20000 (Runtime.reference pr colors) args
  let res := match r.res with | .ok n => s!"ok {n}" | .panic _ => "panic" | .diverge => "diverge"
  return .mkObj [("ev", .arr (r.out.map evJson).toArray), ("res", .str res)]
def main (as : List String) : IO Unit := do
  let t ← IO.FS.readFile as.head!
  for l in t.splitOn "\n" do
    if l != "" then
      match Json.parse l with
      | .ok j => IO.println (runOne j).compress
      | .error e => IO.println e
'''
seed=int(sys.argv[1]); N=int(sys.argv[2]); R=random.Random(seed)
def v4i(): 
    k=R.random()
    if k<.15: return R.choice([0,1,0xFFFFFFFF,0xFFFFFFFE,0x80000000,0x7FFFFFFF,0xFFFFFF00])
    if k<.5: return R.choice([0x0A000000,0xC0A80100,0xE0000000,0xF0000000,0xFFFFFF00,0])+R.randrange(0,64)
    return R.getrandbits(32)
def s4(v): return ".".join(str((v>>k)&255) for k in(24,16,8,0))
def v4(): 
    s=s4(v4i())
    k=R.random()
    if k<.04: s=R.choice(["256.1.1.1","1.2.3","1.2.3.4.5","1..2.3","01.002.3.4","1.2.3.99999999999","1.2.3.4294967296","1.2.3.4294967295","+1.2.3.4","1.2.3.+4","1.2.3.-4","1.2.3.a",".1.2.3","a.b.c.d","1.2.3.4 "," 1.2.3.4","1.2.3.4:","1.2.3.٣","","1.2.3.4\n","\"","\\1.2.3.4","\u00e91.2.3.4","1.2.3.4\t","\x7f","1.2.3.\u2028"])
    return s
def m4i():
    k=R.random()
    if k<.6:
        p=R.choice([R.randrange(33),R.randrange(24,33)]); return (0xFFFFFFFF<<(32-p))&0xFFFFFFFF
    if k<.9: return 0xFFFFFFFF & ~sum(1<<R.randrange(32) for _ in range(R.randrange(6)))& 0xFFFFFFFF
    return R.getrandbits(32)
def v6i():
    k=R.random()
    if k<.2: return R.choice([0,1,(1<<128)-1,(1<<128)-2,1<<127,(1<<64)-1,1<<64,(1<<64)+1])
    if k<.5: return (0x20010db8<<96)+ (R.randrange(4)<<64)+R.randrange(64)
    if k<.7: return ((1<<128)-1)^R.randrange(256)
    v=0
    for _ in range(8): v=(v<<16)|R.choice([0,0,0,R.getrandbits(16),R.getrandbits(4)])
    return v
def s6(v):
    t=str(rip.V6(v>>64,v&rip.U64))
    if R.random()<.2: t=":".join("%x"%((v>>k)&0xFFFF) for k in range(112,-1,-16))
    if R.random()<.05: t=t.upper()
    return t
def v6():
    if R.random()<.05: return R.choice([":",":::","::1::","1:2:3:4:5:6:7","1:2:3:4:5:6:7:8:9","1::2::3","::","1:","::g","12345::","1:2:3:4:5:6:7::","::2:3:4:5:6:7:8","1::3:4:5:6:7:8","+1::","::-1","00001::",":1","::1.2.3.4","1:2:3:4:5:6:7:","abcd","::fffff","1:2:3:4::5:6:7:8"])
    return s6(v6i())
def m6i():
    k=R.random()
    F=(1<<128)-1
    if k<.6:
        p=R.choice([R.randrange(129),R.randrange(120,129)]); return (F<<(128-p))&F
    return F & ~sum(1<<R.randrange(128) for _ in range(R.randrange(6))) & F
def pfx(mx):
    k=R.random()
    if k<.06: return R.choice(["33","129","99999999999999999999999","18446744073709551615","18446744073709551616","","+8","08","a","-"," 8"])
    if k<.5: return str(R.randrange(mx+1))
    return str(R.randrange(mx-8,mx+1))
def m4s():
    return R.choice([s4(m4i()),s4(m4i()),"-"+s4(m4i()^0xFFFFFFFF)]) if R.random()<.95 else v4()
def m6s():
    return R.choice([s6(m6i()),s6(m6i()),"-"+s6(m6i()^((1<<128)-1))]) if R.random()<.95 else v6()
def spec(small=False,fam=None):
    fam=fam or R.choice([4,6])
    if R.random()<.02: return R.choice(["","/","1.2.3.4","::","1.2.3.4/","/24","1.2.3.4/24/","1.2.3.4/--3","::/ffff::/","a/b","1.2.3.4/ffff::","::1/255.0.0.0","1/1:","0/0","f/8","-1.2.3.4/5"])
    if R.random()<.02: return v4()+"/"+v4()
    if fam==4:
        m=R.choice([lambda:pfx(32),lambda:"-"+str(R.randrange(33)) if not small else "-"+str(R.randrange(8)),m4s])()
        if small and R.random()<.9: m=R.choice([str(R.randrange(22,33)),"-"+str(R.randrange(9)),s4(0xFFFFFFFF&~sum(1<<R.randrange(32) for _ in range(R.randrange(7)))&0xFFFFFFFF)])
        return v4()+"/"+m
    m=R.choice([lambda:pfx(128),lambda:"-"+str(R.randrange(129)),m6s])()
    if small and R.random()<.9: m=R.choice([str(R.randrange(118,129)),"-"+str(R.randrange(9)),s6(((1<<128)-1)&~sum(1<<R.randrange(128) for _ in range(R.randrange(7))))])
    return v6()+"/"+m
def near(fam):
    # specs close together
    if fam==4:
        b=R.choice([0,0x0A000000,0xFFFFFFF0]); a=b+R.randrange(16)
        m=R.choice([str(R.randrange(27,33)),s4(0xFFFFFFFF&~R.randrange(16)),s4(0xFFFFFFFF&~R.randrange(16))])
        return s4(a)+"/"+m
    b=R.choice([0,0x20010db8<<96,((1<<128)-16),(1<<64)-8]); a=b+R.randrange(16)
    m=R.choice([str(R.randrange(123,129)),s6(((1<<128)-1)&~R.randrange(16)),s6(((1<<128)-1)&~R.randrange(16))])
    return s6(a)+"/"+m
def case():
    k=R.randrange(8)
    if k==0: a=[spec() for _ in range(R.randrange(1,4))]
    elif k==1:
        fam=R.choice([4,6]); a=[R.choice(["-m","--minimize"])]+[near(fam) if R.random()<.97 else spec() for _ in range(R.randrange(0,9))]
    elif k==2:
        if R.random()<.5:
            x=v4i(); a=["-d",s4(x),s4(R.choice([min(x+R.randrange(600),0xFFFFFFFF),max(0,x-R.randrange(600)),R.getrandbits(32)]))]
        else:
            x=v6i(); a=["--derange",s6(x),s6(R.choice([min(x+R.randrange(600),(1<<128)-1),max(0,x-R.randrange(600)),v6i()]))]
        if R.random()<.15: a[R.randrange(1,3)]=R.choice([v4(),v6()])
        if R.random()<.05: a=a[:R.randrange(1,4)]+[v4()]
    elif k==3:
        a=[R.choice(["-s","--split"]),spec(R.random()<.5)]+[R.choice([str(R.randrange(40)),str(R.choice([0,1,2,3,6,14,30,62,63,254,255,1<<31,1<<32,1<<33,1<<126,1<<127,(1<<128)-2,1<<128]))]) if R.random()<.97 else R.choice(["-1","+1","-+1","+-1","","_","1_0","_1","a","-0","--1","++1","1__","-_1","+_1","-","+"]) for _ in range(R.randrange(0,5))]
    elif k==4:
        fam=R.choice([4,6]); s=spec(True,fam)
        p=s.split("/")
        t=R.choice([str(R.randrange(min(28,99),33)) if fam==4 else str(R.randrange(124,129)), str(R.randrange(33 if fam==4 else 129)) if R.random()<.2 else ("32" if fam==4 else "128"), s4(0xFFFFFFFF&~sum(1<<R.randrange(32) for _ in range(R.randrange(7)))&0xFFFFFFFF) if fam==4 else s6(((1<<128)-1)&~sum(1<<R.randrange(128) for _ in range(R.randrange(7))))])
        if R.random()<.1: t=R.choice([v4(),v6(),pfx(32)])
        a=[R.choice(["-r","--resize"]),s,t]
        if R.random()<.03: a.append("x")
    elif k==5: a=[R.choice(["-e","--enumerate"])]+[spec(True) for _ in range(R.randrange(0,4))]
    elif k==6: a=[near(R.choice([4,6])) if R.random()<.5 else spec(False,4) for _ in range(R.randrange(0,3))]
    else:
        a=[spec()]
        if R.random()<.1: a=R.choice([["--help"],["--color-test","x"],[],["-x"],["-h"],["--help","1"],["-m"],["-e"]])
    return {"args":["ripcalc"]+a,"colors":R.random()<.5,"checked":R.random()<.5}
def norm(ev):
    o=[]
    for e in ev:
        e=list(e)
        if e[0]=="err" and o and o[-1][0]=="err": o[-1][1]+=e[1]
        else: o.append(e)
    return o
cases=[];exp=[]
while len(cases)<N:
    c=case()
    ev,r=rip.run(c["args"],c["colors"],c["checked"],cap=1200)
    if r=="diverge": continue
    cases.append(c);exp.append((norm(ev),r))
d=tempfile.mkdtemp()
f=os.path.join(d,"cases.jsonl")
drv=os.path.join(d,"Driver.lean")
open(drv,"w").write(DRIVER)
open(f,"w").write("".join(json.dumps(c)+"\n" for c in cases))
p=subprocess.run(["lake","env","lean","--run",drv,f],cwd=os.path.join(here,"..","lean"),capture_output=True,text=True)
out=[l for l in p.stdout.split("\n") if l]
bad=0;stat={}
for c,(ev,r),l in zip(cases,exp,out):
    j=json.loads(l)
    key=(c["args"][1] if len(c["args"])>1 and c["args"][1].startswith("-") else "show",r); stat[key]=stat.get(key,0)+1
    if norm(j["ev"])!=ev or j["res"]!=r:
        bad+=1
        if bad<6: print("DIFF",c,"\n py",r,ev[-3:],"\n lean",j["res"],norm(j["ev"])[-3:])
print(len(out),"of",N,"bad",bad); print(p.stderr[-500:]); print(stat)

"""Line-by-line transliteration of /repo/src (Rust) into Python."""
import re
class Panic(Exception): pass
class Diverge(Exception): pass
CHECKED=True
class PIE(Exception):
    def __init__(s,k): s.k=k
    def dbg(s): return "ParseIntError { kind: %s }"%s.k
    def disp(s): return {"Empty":"cannot parse integer from empty string","InvalidDigit":"invalid digit found in string","PosOverflow":"number too large to fit in target type"}[s.k]
def parse_uint(s,bits,radix=10):
    if s=="": raise PIE("Empty")
    b=s.encode()
    if len(b)==1 and b in (b'+',b'-'): raise PIE("InvalidDigit")
    if b[:1]==b'+': b=b[1:]
    v=0
    # std: from_str_radix; for each digit: checked_mul, to_digit, checked_add  (mul checked before digit? see below)
    M=(1<<bits)-1
    # can_not_overflow: radix<=16 and len<= size_of*2
    fast = radix<=16 and len(b)<=bits//8*2
    for c in b:
        if fast:
            d=dig(c,radix)
            if d is None: raise PIE("InvalidDigit")
            v=v*radix+d
        else:
            # run_checked_loop: let mul = result.checked_mul(radix); let x = to_digit or InvalidDigit; result = mul? ; add?
            mul=v*radix
            d=dig(c,radix)
            if d is None: raise PIE("InvalidDigit")
            if mul>M: raise PIE("PosOverflow")
            if mul+d>M: raise PIE("PosOverflow")
            v=mul+d
    return v
def dig(c,radix):
    ch=chr(c)
    if '0'<=ch<='9': d=c-48
    elif 'a'<=ch<='z': d=c-97+10
    elif 'A'<=ch<='Z': d=c-65+10
    else: return None
    return d if d<radix else None
def dbgstr(s):
    o='"'
    for ch in s:
        if ch=='"': o+='\\"'
        elif ch=='\\': o+='\\\\'
        elif ch=='\n': o+='\\n'
        elif ch=='\t': o+='\\t'
        elif ch=='\r': o+='\\r'
        elif ch=='\0': o+='\\0'
        elif ord(ch)<32 or 127<=ord(ch)<160 or ch in '\u2028\u2029': o+='\\u{%x}'%ord(ch)
        else: o+=ch
    return o+'"'
class APE(Exception):
    def __init__(s,k,*a): s.k=k; s.a=a
    def disp(s):
        a=s.a
        if s.k=="UnknownAddressType": return "unknown IP address type"
        if s.k=="IncorrectChunkCount": return f"IP address has {a[0]} chunk(s); expected {a[1]}"
        if s.k=="EmptyChunk": return f"IP address chunk with index {a[0]} is empty"
        if s.k=="ChunkParseError": return f"failed to parse IP address chunk with index {a[0]} ({dbgstr(a[1])}): {a[2].disp()}"
        if s.k=="ChunkOutOfRange": return f"IP address chunk with index {a[0]} ({a[1]}) is out of range {a[2]} <= n <= {a[3]} chunk"
        if s.k=="TooManyShorteningElements": return f"IP address has {a[0]} shortening elements; expected maximum {a[1]}"
    def dbg(s):
        if not s.a: return s.k
        def f(x):
            if isinstance(x,str): return dbgstr(x)
            if isinstance(x,PIE): return x.dbg()
            return str(x)
        return s.k+"("+", ".join(f(x) for x in s.a)+")"
class V4:
    ver=4
    def __init__(s,v): s.v=v
    def key(s): return s.v
    def __eq__(s,o): return s.v==o.v
    def __hash__(s): return hash(s.v)
    def __lt__(s,o): return s.v<o.v
    def __le__(s,o): return s.v<=o.v
    def __gt__(s,o): return s.v>o.v
    @staticmethod
    def add_internal(a,b):
        t=a+b
        if t<0: return None
        elif t>0xFFFFFFFF: return None
        else: return V4(t)
    def byte_count(s): return 4
    def count_ones(s): return bin(s.v).count('1')
    def count_zeros(s): return 32-s.count_ones()
    def to_bytes(s): return [(s.v>>24)&255,(s.v>>16)&255,(s.v>>8)&255,(s.v>>0)&255]
    @staticmethod
    def from_bytes(b):
        if len(b)!=4: return None
        return V4((b[0]<<24)|(b[1]<<16)|(b[2]<<8)|(b[3]<<0))
    def neg(s): return V4(s.v^0xFFFFFFFF)
    def add_addr(s,o): return V4.add_internal(s.v,o.v)
    def add_offset(s,k): return V4.add_internal(s.v,k)
    def subtract_addr(s,o): return V4.add_internal(s.v,-o.v)
    def subtract_offset(s,k): return V4.add_internal(s.v,-k)
    @staticmethod
    def from_str(t):
        ch=t.split('.')
        if len(ch)!=4: raise APE("IncorrectChunkCount",len(ch),4)
        av=0
        for i in range(4):
            sc=24-i*8
            if len(ch[i])==0: raise APE("EmptyChunk",i)
            try: cv=parse_uint(ch[i],32)
            except PIE as e: raise APE("ChunkParseError",i,ch[i],e)
            if cv>255: raise APE("ChunkOutOfRange",i,cv,0,255)
            av|=cv<<sc
        return V4(av)
    def __str__(s):
        b=s.to_bytes(); return f"{b[0]}.{b[1]}.{b[2]}.{b[3]}"
    def __and__(s,o): return V4(s.v&o.v)
    def __or__(s,o): return V4(s.v|o.v)
    def __xor__(s,o): return V4(s.v^o.v)
U64=(1<<64)-1
class V6:
    ver=6
    def __init__(s,t,b): s.t=t; s.b=b
    def key(s): return (s.t,s.b)
    def __eq__(s,o): return s.key()==o.key()
    def __hash__(s): return hash(s.key())
    def __lt__(s,o): return s.key()<o.key()
    def __le__(s,o): return s.key()<=o.key()
    def __gt__(s,o): return s.key()>o.key()
    def to_chunks(s):
        return [(s.t>>48)&0xFFFF,(s.t>>32)&0xFFFF,(s.t>>16)&0xFFFF,s.t&0xFFFF,(s.b>>48)&0xFFFF,(s.b>>32)&0xFFFF,(s.b>>16)&0xFFFF,s.b&0xFFFF]
    @staticmethod
    def add_internal(at,ab,ot,ob):
        bs=(ab+ob)&U64
        carry=bs<ab or bs<ob
        ts=at+ot
        if ts>U64: return None
        if carry:
            ts=ts+1
            if ts>U64: return None
        return V6(ts,bs)
    @staticmethod
    def sub_internal(at,ab,ot,ob):
        bd=(ab-ob)&U64
        borrow=at<ot or (at==ot and ab<ob)
        td=at-ot
        if td<0: return None
        if borrow:
            td=td-1
            if td<0: return None
        return V6(td,bd)
    def byte_count(s): return 16
    def count_ones(s): return bin(s.t).count('1')+bin(s.b).count('1')
    def count_zeros(s): return 128-s.count_ones()
    def to_bytes(s): return [(s.t>>k)&255 for k in (56,48,40,32,24,16,8,0)]+[(s.b>>k)&255 for k in (56,48,40,32,24,16,8,0)]
    @staticmethod
    def from_bytes(b):
        if len(b)!=16: return None
        t=0
        for i in range(8): t|=b[i]<<(56-8*i)
        u=0
        for i in range(8): u|=b[8+i]<<(56-8*i)
        return V6(t,u)
    def neg(s): return V6(s.t^U64,s.b^U64)
    def add_addr(s,o): return V6.add_internal(s.t,s.b,o.t,o.b)
    def add_offset(s,k):
        if k<0: return s.subtract_offset(-k)
        return V6.add_internal(s.t,s.b,0,k)
    def subtract_addr(s,o): return V6.sub_internal(s.t,s.b,o.t,o.b)
    def subtract_offset(s,k):
        if k<0: return s.add_offset(-k)
        return V6.sub_internal(s.t,s.b,0,k)
    @staticmethod
    def from_str(t):
        a=t
        if a.startswith(':'): a='0'+a
        if a.endswith(':'): a=a+'0'
        ch=a.split(':')
        if len(ch)>8: raise APE("IncorrectChunkCount",len(ch),8)
        sc=sum(1 for x in ch if len(x)==0)
        if sc>1: raise APE("TooManyShorteningElements",sc,1)
        ac=[]
        if sc==0:
            if len(ch)!=8: raise APE("IncorrectChunkCount",len(ch),8)
            ac=list(ch)
        else:
            ac=["0"]*8
            for i in range(len(ch)):
                if len(ch[i])==0: break
                ac[i]=ch[i]
            for i in range(len(ch)):
                if len(ch[len(ch)-i-1])==0: break
                j=len(ac)-i-1
                ac[j]=ch[len(ch)-i-1]
        top=0;bot=0
        for i in range(8):
            shift=112-i*16
            w=shift%64
            it=i<4
            try: cv=parse_uint(ac[i],16,16)
            except PIE as e: raise APE("ChunkParseError",i,ac[i],e)
            if it: top|=cv<<w
            else: bot|=cv<<w
        return V6(top,bot)
    def __str__(s):
        if s.t==0 and s.b==0: return "::"
        c=s.to_chunks()
        i=0; zi=None; zl=0
        while i<8:
            if c[i]!=0:
                i+=1; continue
            j=i+1
            while j<8:
                if c[j]!=0: break
                j+=1
            if zl<j-i:
                zi=i; zl=j-i
            i=j
        cs=[]; i=0
        while i<8:
            if zi==i:
                if i==0: cs.append("")
                cs.append("")
                i+=zl
                if i==8: cs.append("")
            else:
                cs.append("%x"%c[i]); i+=1
        return ":".join(cs)
    def __and__(s,o): return V6(s.t&o.t,s.b&o.b)
    def __or__(s,o): return V6(s.t|o.t,s.b|o.b)
    def __xor__(s,o): return V6(s.t^o.t,s.b^o.b)
# cidr.rs
T=[9]*256
for k,v in {0:0,0x80:1,0xC0:2,0xE0:3,0xF0:4,0xF8:5,0xFC:6,0xFE:7,0xFF:8}.items(): T[k]=v
C2P=[0x00,0x80,0xC0,0xE0,0xF0,0xF8,0xFC,0xFE,0xFF]
def prefix_from(bs):
    over=False; cidr=0
    for b in bs:
        m=T[b]
        if m==9: return None
        elif m==8:
            if over: return None
            cidr+=8
        elif m==0: over=True
        else:
            if over: return None
            cidr+=m; over=True
    return cidr
def mask_bytes(prefix,bc):
    r=[]
    while prefix>0 and len(r)<bc:
        if prefix>=8: r.append(0xFF); prefix-=8
        else:
            r.append(C2P[prefix]); break
    while len(r)<bc: r.append(0)
    return r
# bit_manip
def bits_of(bs): return [(b&(1<<(7-k)))!=0 for b in bs for k in range(8)]
def binary(bs): return "".join('1' if b else '0' for b in bits_of(bs))
def bytes_of(bits):
    r=[];cur=0
    for i in range(len(bits)):
        if bits[i]: cur|=1<<(7-i%8)
        if i%8==7: r.append(cur); cur=0
    if len(bits)%8!=0: r.append(cur)
    return r
def unravel(a,m):
    mb=m.to_bytes()
    if prefix_from(mb) is not None: return a
    ab=bits_of(a.to_bytes()); mbits=bits_of(mb)
    n=[];h=[]
    for x,isn in zip(ab,mbits): (n if isn else h).append(x)
    r=type(a).from_bytes(bytes_of(n+h))
    if r is None: raise Panic()
    return r
def weave(a,m):
    mb=m.to_bytes()
    if prefix_from(mb) is not None: return a
    ab=bits_of(a.to_bytes())
    cp=sum(bin(b).count('1') for b in mb)
    n=[];h=[]
    for i in range(len(ab)): (n if i<cp else h).append(ab[i])
    r=[];ni=0;hi=0
    for isn in bits_of(mb):
        if isn: r.append(n[ni]); ni+=1
        else: r.append(h[hi]); hi+=1
    x=type(a).from_bytes(bytes_of(r))
    if x is None: raise Panic()
    return x
class Net:
    def __init__(s,b,m,c): s.b=b;s.m=m;s.c=c
    def __eq__(s,o): return (s.b,s.m,s.c)==(o.b,o.m,o.c)
    def __hash__(s): return hash((s.b,s.m,s.c))
    @staticmethod
    def wm(a,m): return Net(a&m,m,prefix_from(m.to_bytes()))
    @staticmethod
    def wp(a,p):
        m=type(a).from_bytes(mask_bytes(p,a.byte_count()))
        return Net(a&m,m,p)
    def wild(s): return s.m.neg()
    def address_count(s):
        r=1
        for b in s.wild().to_bytes():
            for _ in range(bin(b).count('1')): r*=2
        return r
    def host_count(s): return s.address_count()-2
    def hb(s): return sum(bin(b).count('1') for b in s.wild().to_bytes())
    def first_host(s):
        if s.hb()<2: return None
        u=unravel(s.b,s.m)
        f=u.add_offset(1)
        if f is None: return None
        return weave(f,s.m)
    def hca(s):
        return type(s.b).from_bytes(mask_bytes(len(s.b.to_bytes())*8-s.hb(),s.b.byte_count())).neg()
    def broadcast(s):
        if s.hb()<1: return None
        u=unravel(s.b,s.m)
        x=u.add_addr(s.hca())
        if x is None: return None
        return weave(x,s.m)
    def last_host(s):
        if s.hb()<2: return None
        u=unravel(s.b,s.m)
        x=u.add_addr(s.hca())
        if x is None: return None
        y=x.subtract_offset(1)
        if y is None: return None
        return weave(y,s.m)
    def next(s):
        u=unravel(s.b,s.m)
        x=u.add_addr(s.hca())
        if x is None: return None
        y=x.add_offset(1)
        if y is None: return None
        return weave(y,s.m)
    def last(s):
        b=s.broadcast()
        return s.b if b is None else b
    def contains(s,a): return (a&s.m)==s.b
    def sup(s,o): return (o.b&s.m)==s.b and (o.m&s.m)==s.m
    def __str__(s):
        return f"{s.b}/{s.c}" if s.c is not None else f"{s.b}/{s.m}"
# cmds/mod.rs
class NSE(Exception):
    def __init__(s,k,*a): s.k=k; s.a=a
    def disp(s):
        a=s.a
        if s.k=="Unrecognized": return "unrecognized network specification: "+dbgstr(a[0])
        if s.k=="Address": return "failed to parse address: "+a[0].dbg()
        if s.k=="Mask": return "failed to parse mask: "+a[0].dbg()
        if s.k=="CidrParse": return "failed to parse CIDR prefix: "+a[0].dbg()
        if s.k=="CidrRange": return f"CIDR prefix {a[0]} is greater than the maximum ({a[1]})"
Z=r"\Z"
R4S=re.compile(r"^(?P<addr>[0-9]+(?:[.][0-9]+){3})/(?P<wildcard>-)?(?P<mask>[0-9]+(?:[.][0-9]+){3})\Z")
R4C=re.compile(r"^(?P<addr>[0-9]+(?:[.][0-9]+){3})/(?P<wildcard>-)?(?P<cidr>[0-9]+)\Z")
R6S=re.compile(r"^(?P<addr>[0-9a-f:]+)/(?P<wildcard>-)?(?P<mask>[0-9a-f:]*:[0-9a-f:]*)\Z")
R6C=re.compile(r"^(?P<addr>[0-9a-f:]+)/(?P<wildcard>-)?(?P<cidr>[0-9]+)\Z")
def addr_or(k,cls,t):
    try: return cls.from_str(t)
    except APE as e: raise NSE(k,e)
def cidr_or(t):
    try: return parse_uint(t,64)
    except PIE as e: raise NSE("CidrParse",e)
def parse_addr(t):
    if '.' in t:
        if ':' in t: raise APE("UnknownAddressType")
        return V4.from_str(t)
    elif ':' in t: return V6.from_str(t)
    else: raise APE("UnknownAddressType")
def parse_netspec(t):
    for R,cls,kind,mx in ((R4S,V4,'m',32),(R4C,V4,'c',32),(R6S,V6,'m',128),(R6C,V6,'c',128)):
        g=R.search(t)
        if not g: continue
        w=g.group('wildcard') is not None
        a=addr_or("Address",cls,g.group('addr'))
        if kind=='m':
            m=addr_or("Mask",cls,g.group('mask'))
            if w: m=m.neg()
            return a,Net.wm(a,m)
        c=cidr_or(g.group('cidr'))
        if c>mx: raise NSE("CidrRange",c,mx)
        if w: c=mx-c
        return a,Net.wp(a,c)
    raise NSE("Unrecognized",t)
def parse_same(l):
    if not l: return None
    f=parse_netspec(l[0]); specs=[f]
    for t in l[1:]:
        x=parse_netspec(t)
        if x[0].ver!=f[0].ver: return "mixed"
        specs.append(x)
    return specs
def parse_subnet(t):
    if ':' in t: return addr_or("Mask",V6,t)
    elif '.' in t: return addr_or("Mask",V4,t)
    return cidr_or(t)
class Prog:
    def __init__(s,colors,cap): s.c=colors; s.ev=[]; s.cap=cap
    def println(s,t=""): s.ev.append(("out",t+"\n"))
    def eprintln(s,t=""): s.ev.append(("err",t+"\n"))
    def wic(s,t,col,pad):
        n=len(t.encode()); p=t
        if pad>0:
            if pad>n: p=t+' '*(pad-n)
        elif pad<0:
            if pad< -n: p=' '*(-pad-n)+t
        if s.c and col is not None:
            s.ev.append(("styled",col,p)); return
        s.println(p)
    def usage(s):
        for t in ["Usage: ripcalc IPADDRESS/SUBNET...","       ripcalc -m|--minimize IPADDRESS/SUBNET...","       ripcalc -d|--derange IPADDRESS IPADDRESS...","       ripcalc -s|--split IPADDRESS/CIDRPREFIX HOSTCOUNT...","       ripcalc -r|--resize IPADDRESS/SUBNET SUBNET","       ripcalc -e|--enumerate IPADDRESS/SUBNET","","SUBNET is one of: SUBNETMASK","                  CIDRPREFIX","                  -WILDCARD","","IPv4 and IPv6 are supported, but cannot be mixed within an invocation."]: s.eprintln(t)
    # show_net
    def show_net(s,args):
        specs=[]
        for a in args[1:]:
            try: specs.append(parse_netspec(a))
            except NSE as e:
                s.eprintln(e.disp()); return 1
        first=True
        for a,n in specs:
            if not first: s.println()
            first=False
            s.out_net(n,a)
        return 0
    def out_net(s,net,addr):
        v4=isinstance(net.b,V4)
        lw,aw=(11,21) if v4 else (11,46)
        oba=s.oba4 if v4 else s.oba6
        def init(l,a):
            s.wic(l,"white",lw); s.wic(a,"blue",aw)
        if addr is not None:
            init("Address:",str(addr)); oba(addr,net.m,False,None); s.println()
            init("Netmask:", f"{net.m} = {net.c}" if net.c is not None else str(net.m)); oba(net.m,None,False,"red"); s.println()
            init("Wildcard:",str(net.wild())); oba(net.wild(),None,False,None); s.println()
            s.wic("=>","white",0); s.println()
        init("Network:", f"{net.b}/{net.c}" if net.c is not None else str(net.b)); oba(net.b,net.m,True,None); s.println()
        f=net.first_host()
        if f is not None:
            init("HostMin:",str(f)); oba(f,None,False,None); s.println()
            l=net.last_host()
            if l is None: raise Panic()
            init("HostMax:",str(l)); oba(l,None,False,None)
        else: s.wic("no hosts","white",0)
        s.println()
        b=net.broadcast()
        if b is not None:
            init("Broadcast:",str(b)); oba(b,None,False,None)
        else: s.wic("no broadcast","white",0)
        s.println()
        if net.host_count()>0:
            init("Hosts/Net:",str(net.host_count()))
            tb=binary(net.b.to_bytes()[0:1]); tm=binary(net.m.to_bytes()[0:1])
            if v4: s.cls(tb,tm)
            s.println()
        else: s.wic("no hosts/net","white",0)
    def cls(s,tb,tm):
        M="magenta"
        if tb.startswith("0") and tm.startswith("1"): s.wic("Class A",M,0)
        elif tb.startswith("10") and tm.startswith("11"): s.wic("Class B",M,0)
        elif tb.startswith("110") and tm.startswith("111"): s.wic("Class C",M,0)
        elif tm.startswith("1111"):
            if tb.startswith("1110"): s.wic("Class D (multicast)",M,0)
            elif tb.startswith("1111"): s.wic("Class E (reserved)",M,0)
    def oba4(s,addr,mask,cc,ov):
        ab=addr.to_bytes(); mb=mask.to_bytes() if mask is not None else None
        for i in range(len(ab)):
            bits=binary([ab[i]]); mbits=binary([mb[i]]) if mb is not None else None
            if ov is not None: s.wic(bits,ov,0)
            elif mbits is None: s.wic(bits,"yellow",0)
            else:
                if i==0 and cc:
                    if mbits[0]=='0': cc=False
                    elif bits[0]=='1' and mbits[1]=='0': cc=False
                    elif bits[1]=='1' and mbits[2]=='0': cc=False
                    elif bits[2]=='1' and mbits[3]=='0': cc=False
                for bit in range(8):
                    color="green" if mbits[bit]=='1' else "yellow"
                    k=None
                    if i==0 and cc:
                        if bit==0: k="magenta"
                        elif bit==1 and bits[0]=='1': k="magenta"
                        elif bit==2 and bits.startswith("11"): k="magenta"
                        elif bit==3 and bits.startswith("111"): k="magenta"
                    s.wic(bits[bit],k or color,0)
            if i<len(ab)-1: s.wic(".","white",0)
    def oba6(s,addr,mask,cc,ov):
        ab=addr.to_bytes(); mb=mask.to_bytes() if mask is not None else None
        for i in range(len(ab)):
            bits=binary([ab[i]]); mbits=binary([mb[i]]) if mb is not None else None
            if ov is not None: s.wic(bits,ov,0)
            elif mbits is None: s.wic(bits,"yellow",0)
            else:
                for bit in range(8): s.wic(bits[bit],"green" if mbits[bit]=='1' else "yellow",0)
            if i<len(ab)-1 and i%2==1: s.wic(":","white",0)
    # minimize
    def minimize(s,args):
        if len(args)<3: s.usage(); return 1
        try: r=parse_same(args[2:])
        except NSE as e:
            s.eprintln("parsing error: "+e.disp()); return 1
        if r is None: return 0
        if r=="mixed":
            s.eprintln("mixing IPv4 and IPv6 is not supported"); return 1
        for n in s.min_subnets([x[1] for x in r]): s.println(str(n))
        return 0
    def min_subnets(s,sub):
        key=lambda n:(n.b.key(),n.m.key())
        sub.sort(key=key)
        fs=set(sub)
        for i in range(len(sub)):
            for j in range(i+1,len(sub)):
                if sub[i].sup(sub[j]) and sub[i]!=sub[j]: fs.discard(sub[j])
        merged=True; rounds=0
        while merged:
            rounds+=1
            if rounds>s.cap: raise Diverge()
            merged=False
            sub=sorted(fs,key=key)
            for i in range(len(sub)):
                for j in range(i+1,len(sub)):
                    if sub[i].m!=sub[j].m: continue
                    l=sub[i].next()
                    if l is not None:
                        if l!=sub[j].b: continue
                    d=sub[i].b^sub[j].b
                    if d.count_ones()>1: continue
                    nm=sub[i].m&d.neg()
                    nn=Net.wm(sub[i].b,nm)
                    if not nn.sup(sub[i]): raise Panic()
                    if not nn.sup(sub[j]): raise Panic()
                    fs.discard(sub[i]); fs.discard(sub[j]); fs.add(nn)
                    merged=True
                    break
                if merged: break
        return sorted(fs,key=key)
    # derange
    def derange(s,args):
        if len(args)!=4: s.usage(); return 1
        try: one=parse_addr(args[2])
        except APE as e: s.eprintln("failed to parse first address: "+e.disp()); return 1
        try: other=parse_addr(args[3])
        except APE as e: s.eprintln("failed to parse second address: "+e.disp()); return 1
        if one.ver!=other.ver: s.eprintln("both addresses must be the same version"); return 1
        for n in s.rts(one,other): s.println(str(n))
        return 0
    def rts(s,a,b):
        ret=[]
        f=min(a,b) if a!=b else a; l=max(a,b) if a!=b else b
        cur=Net.wp(f,l.byte_count()*8)
        while f<=l:
            if cur.c is None: raise Panic()
            p=cur.c-1
            if p<0:
                if CHECKED: raise Panic()
                p&=U64
            lg=Net.wp(f,p)
            if lg.b!=f or lg.last()>l:
                ret.append(cur)
                x=cur.next()
                if x is None: raise Panic()
                f=x
                cur=Net.wp(f,l.byte_count()*8)
            else: cur=lg
        return ret
    # resize
    def resize(s,args):
        if len(args)!=4: s.usage(); return 1
        try: _,net=parse_netspec(args[2])
        except NSE as e: s.eprintln(f"failed to parse network spec {dbgstr(args[2])}: {e.disp()}"); return 1
        v4=isinstance(net.b,V4)
        try: sn=parse_subnet(args[3])
        except NSE as e: s.eprintln(f"failed to parse subnet {dbgstr(args[3])}: {e.disp()}"); return 1
        if isinstance(sn,int):
            mx=32 if v4 else 128
            if sn>mx: s.eprintln(f"CIDR value {sn} is greater than maximum for IPv{4 if v4 else 6} ({mx})"); return 1
            m=type(net.b).from_bytes(mask_bytes(sn,mx//8))
        elif type(sn) is type(net.b): m=sn
        else:
            s.eprintln("cannot resize an IPv4 subnet to an IPv6 mask" if v4 else "cannot resize an IPv6 subnet to an IPv4 mask"); return 1
        nets,o=s.resize_network(net,m)
        s.println("Original network:"); s.out_net(net,None); s.println()
        if o<0: s.println("Supernet:"); s.out_net(nets[0],None); s.println()
        elif o==0: s.println("Same-sized net:"); s.out_net(nets[0],None); s.println()
        else:
            for i in range(len(nets)):
                s.println(f"Subnet {i+1}:"); s.out_net(nets[i],None); s.println()
        return 0
    def resize_network(s,net,m):
        ih=net.m.count_zeros(); nn=m.count_ones(); nh=m.count_zeros()
        if nh>ih:
            u=unravel(net.b,net.m); sh=Net.wp(u,nn); w=weave(sh.b,m)
            return [Net.wm(w,m)],-1
        elif nh==ih:
            u=unravel(net.b,net.m); w=weave(u,m)
            return [Net.wm(w,m)],0
        u=unravel(net.b,net.m); l=unravel(net.last(),net.m)
        nets=[]; cur=u
        while cur<=l:
            if len(nets)>s.cap: raise Diverge()
            w=weave(cur,m); n=Net.wm(w,m); nets.append(n)
            x=n.next()
            if x is not None: cur=unravel(x,n.m)
            else: break
        return nets,1
    # split
    def split(s,args):
        if len(args)<4: s.usage(); return 1
        hc=[]
        for t in args[3:]:
            v,err=bigint(t)
            if err: s.eprintln(f"failed to parse host count {dbgstr(t)}: {err}"); return 1
            if v<0: s.eprintln("host counts must be zero or greater"); return 1
            hc.append(v)
        try: _,net=parse_netspec(args[2])
        except NSE as e: s.eprintln(f"failed to parse network specification {dbgstr(args[2])}: {e.disp()}"); return 1
        s.println("Subnet to split:"); s.out_net(net,None); s.println()
        r=s.split_subnet(net,hc)
        if r is None: s.println("Not enough addresses available for this split."); return 1
        for h,n in zip(hc,r):
            s.println(f"Subnet for {h} hosts:"); s.out_net(n,None); s.println()
        mx=None
        for n in r:
            l=n.last()
            if mx is None or mx<=l: mx=l
        if not net.contains(mx): s.println("Network is too small")
        else:
            x=mx.add_offset(1)
            if x is not None:
                s.println("Unused networks:")
                for n in s.rts(x,net.last()): s.println(str(n))
        return 0
    def split_subnet(s,net,hc):
        ih=sorted(enumerate(hc),key=lambda x:-x[1])
        m={}
        cur=Net.wp(net.b,net.m.byte_count()*8)
        for i,h in ih:
            while cur.host_count()<h:
                if cur.c is None: raise Panic()
                if cur.c==0: break
                cur=Net.wp(cur.b,cur.c-1)
            if cur.c==0: return None
            m[i]=cur
            x=cur.next()
            if x is None: return None
            cur=Net.wp(x,cur.m.byte_count()*8)
        return [m[i] for i in sorted(m)]
    def enumerate(s,args):
        if len(args)<3: s.usage(); return 1
        ret=0
        for t in args[2:]:
            try: _,net=parse_netspec(t)
            except NSE as e:
                s.eprintln(f"failed to parse network {dbgstr(t)}: {e.disp()}"); ret=1; continue
            empty=False; u=unravel(net.b,net.m); l=unravel(net.last(),net.m); n=0
            while True:
                if empty: break
                if u>l: break
                w=weave(u,net.m)
                x=u.add_offset(1)
                if x is not None: u=x
                else: empty=True
                s.println(str(w)); n+=1
                if n>s.cap: raise Diverge()
        return ret
    def main(s,args):
        if len(args)<2: s.usage(); return 1
        a=args[1]
        if a in("-m","--minimize"): return s.minimize(args)
        elif a in("-d","--derange"): return s.derange(args)
        elif a in("-s","--split"): return s.split(args)
        elif a in("-r","--resize"): return s.resize(args)
        elif a in("-e","--enumerate"): return s.enumerate(args)
        elif a=="--color-test":
            for n in "Black DarkBlue DarkGreen DarkCyan DarkRed DarkMagenta DarkYellow Gray DarkGray Blue Green Cyan Red Magenta Yellow White".split():
                s.wic(n,n[0].lower()+n[1:],20)
            return 0
        elif a=="--help": s.usage(); return 0
        return s.show_net(args)
def bigint(t):
    """num-bigint 0.4 BigInt::from_str_radix(10)"""
    s=t; neg=False
    if s.startswith('-'):
        tail=s[1:]
        if not tail.startswith('+'): s=tail
        neg=True
    # BigUint::from_str_radix
    if s.startswith('+'):
        tail=s[1:]
        if not tail.startswith('+'): s=tail
    if s=="": return None,"cannot parse integer from empty string"
    if s.startswith('_'): return None,"invalid digit found in string"
    v=0
    for c in s.encode():
        ch=chr(c)
        if '0'<=ch<='9': d=c-48
        elif 'a'<=ch<='z': d=c-97+10
        elif 'A'<=ch<='Z': d=c-65+10
        elif ch=='_': continue
        else: d=255
        if d<10: v=v*10+d
        else: return None,"invalid digit found in string"
    return (-v if neg else v),None
def run(args,colors,checked,cap=3000):
    global CHECKED
    CHECKED=checked
    p=Prog(colors,cap)
    try: r="ok %d"%p.main(args)
    except Panic: r="panic"
    except Diverge: r="diverge"
    return p.ev,r

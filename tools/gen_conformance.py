#!/usr/bin/env python3
"""Write lean/Verif/Conformance/Conversions.lean: the assertions of /repo/tests/{num,bit,bit_num}_conversion_tests.rs on the model."""
import re, struct, os
REPO='/repo/tests/'
INT={'LINT':(1,64),'DINT':(1,32),'INT':(1,16),'SINT':(1,8),'ULINT':(0,64),'UDINT':(0,32),'UINT':(0,16),'USINT':(0,8),
     'LWORD':(0,64),'DWORD':(0,32),'WORD':(0,16),'BYTE':(0,8),'BOOL':(0,1),'CHAR':(0,8),'WCHAR':(0,16)}
FLT={'REAL':('f32','<f','<I'),'LREAL':('f64','<d','<Q')}
def wrap(t,n):
    s,b=INT[t]; n%=1<<b
    return n-(1<<b) if s and n>>(b-1) else n
def arg8(t,n):
    # a BOOL variable is a byte: an integer literal passed to a BOOL parameter is not cut to one bit
    return n%256 if t=='BOOL' else wrap(t,n)
def bits(t,x):
    f,p,i=FLT[t]
    return struct.unpack(i,struct.pack(p,x))[0]
out=[]; skipped=[]; n=0
st=open('/verif/lean/Verif/Model/StTable.lean').read()
for f in ('num','bit','bit_num'):
    path=REPO+f+'_conversion_tests.rs'
    txt=open(path).read()
    out.append(f'\n/-! ### tests/{f}_conversion_tests.rs -/\n')
    for m in re.finditer(r'fn (\w+)\(\) \{\n(.*?)\n\}\n', txt, re.S):
        name,body=m[1],m[2]
        env={}
        for v in re.finditer(r'^\s*(\w+)\s*:\s*(\w+)\s*:=\s*([^;]+);',body,re.M):
            env[v[1]]=(v[2],v[3].strip())
        calls={}
        for c in re.finditer(r'^\s*(?:ret\.)?(\w+)\s*:=\s*(\w+?)_(?:TO|to)_(\w+)\((.*?)\);',body,re.M): calls[c[1]]=(c[2].upper(),c[3].upper(),c[4])
        asserts={}
        for a in re.finditer(r'assert_eq!\(maintype\.(\w+),\s*([^;]*?)\);',body,re.S): asserts[a[1]]=a[2]
        for a in re.finditer(r'assert!\((!?)maintype\.(\w+)\);',body): asserts[a[2]]='0' if a[1] else '1'
        if not calls or set(calls)!=set(asserts): skipped.append((f,name,sorted(calls),sorted(asserts)))
        for k in calls:
            if k not in asserts: continue
            s,d,arg=calls[k]; exp=asserts[k]
            def val(x,t):
                x=x.strip()
                if "'" in x:
                    return ord(x.split("'")[1])
                if '"' in x: return ord(x.split('"')[1])
                mm=re.match(r'(\w+)#(.*)$',x)
                if mm and mm[1].upper() in list(INT)+list(FLT): x=mm[2]
                mm=re.match(r'(\d+)#([0-9A-Fa-f_]+)$',x)
                if mm: return int(mm[2].replace('_',''),int(mm[1]))
                if x.upper() in ('TRUE','FALSE'): return int(x.upper()=='TRUE')
                mm=re.match(r'^(\w+)\s*([+-])\s*(\d+)$',x)
                if mm and mm[1] in env:
                    t0,v0=env[mm[1]]
                    return wrap(t0,val(v0,t0)+(1 if mm[2]=='+' else -1)*int(mm[3]))
                if x in env: return val(env[x][1],env[x][0])
                return float(x) if t in FLT else int(x.replace('_',''))
            try:
                a=val(arg,s)
                e=re.sub(r'(i|u|f)(8|16|32|64)$','',exp.strip()).replace('_','').rstrip('_')
                if e.startswith("b'"): ev=ord(e[2])
                elif e.startswith('"') and 'as' in e: ev=ord(e[1])
                elif re.match(r'^-?[\d.eE+-]+$',e): ev=float(e) if d in FLT else int(e)
                else: raise ValueError(e)
            except Exception as ex:
                skipped.append((f,name,k,arg,exp,str(ex))); continue
            if s in FLT or d in FLT:
                if {s,d} in ({'LWORD','LREAL'},{'DWORD','REAL'}):
                    sv=bits(s,a) if s in FLT else a; dv=bits(d,ev) if d in FLT else ev
                    fn=f'{s}_TO_{d}'
                    lhs=f'({fn} ⟨{sv}⟩)' if s in FLT else f'({fn} {sv}).bits'
                    out.append(f'example : {lhs} = {dv} := by decide +kernel  -- {name}')
                    n+=1; continue
                ty=lambda t: f'(.flt .{FLT[t][0]})' if t in FLT else f'(.int .{t})'
                vv=lambda t,x: f'(.flt {bits(t,x)})' if t in FLT else (f'(.int {x})' if x>=0 else f'(.int ({x}))')
                out.append(f'example : stFloat {ty(s)} {ty(d)} {vv(s,a if s in FLT else wrap(s,a))} = .ok {vv(d,ev)} := by decide +kernel  -- {name}')
            else:
                x=arg8(s,a)
                if f'⟨.{s}, .{d},' not in st:
                    skipped.append((f,name,k,'native',s,d)); continue
                p=lambda z: str(z) if z>=0 else f'({z})'
                out.append(f'example : stInt .{s} .{d} {p(x)} = some {p(ev)} := by decide +kernel  -- {name}')
            n+=1
hdr='''import Verif.Model.StTable
import Verif.Model.StFloatTable
import Verif.Model.Bits
/-
Generated by tools/gen_conformance.py: the assertions of tests/num_conversion_tests.rs, tests/bit_conversion_tests.rs and
tests/bit_num_conversion_tests.rs, run on the model. These are tests of the transcription, not proofs.
A BOOL variable is a byte, so an integer literal passed to a BOOL parameter is not cut to one bit.
-/
namespace Verif.Conformance
open Verif

/-- The conversion function with this name, on an integer. -/
def stInt (s d : StType) (x : Int) : Option Int :=
  (stConversions.find? (fun c => c.src = s ∧ c.dst = d)).map (·.run stConversions x)

/-- The conversion function with this name, where a float is involved. -/
def stFloat (s d : StNum) (v : StValue) : Res StValue :=
  match stFloatConversions.find? (fun c => c.src = s ∧ c.dst = d) with
  | some c => c.run v
  | none => .ub
'''
open('/verif/lean/Verif/Conformance/Conversions.lean','w').write(hdr+'\n'.join(out)+'\n\nend Verif.Conformance\n')
print(n,'assertions'); 
for s in skipped: print('not translated:',s)

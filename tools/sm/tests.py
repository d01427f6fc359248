"""Extract the calls test_2to2_amp2(...) of SM/*.cpp with numeric arguments and print them as JSON.

usage: tests.py REPO > cases.json"""
import sys, os, glob, re, math, json
sys.path.insert(0, os.path.dirname(os.path.abspath(__file__)))
from cxx import strip_comments


def num(e, env):
    e = e.replace('std::sqrt', 'sqrt').replace('std::pow', 'pow')
    return float(eval(e, {'sqrt': math.sqrt, 'pow': pow, '__builtins__': {}}, env))


def split(s):
    out, d, cur = [], 0, ''
    for c in s:
        if c in '([{': d += 1
        if c in ')]}': d -= 1
        if c == ',' and d == 0:
            out.append(cur.strip()); cur = ''
        else: cur += c
    if cur.strip(): out.append(cur.strip())
    return out


def cases(repo, name):
    s = strip_comments(open(f'{repo}/SM/{name}.cpp').read())
    b = s[s.index('int test_' + name):]
    res, env, arr, obj, hist = [], {}, {}, {}, {}
    # statements end at ; outside of braces of lambdas and initialisers: remove lambda bodies first
    b = re.sub(r'\[&\]\(\)\s*\{\s*return\s+(\w+)\.(\w+)\(\);?\s*\}', r'LAMBDA_\1__\2', b)
    for st in re.split(r';|(?<=\))\s*\{', b):
        st = st.strip().lstrip('{').strip()
        m = re.match(r'ldouble\s+(\w+)\[20\]\s*=\s*\{(.*)\}$', st, re.S)
        if m:
            arr[m.group(1)] = [float(x) for x in m.group(2).split(',')]
            continue
        m = re.match(r'(?:ldouble\s+)?(\w+\s*=[^=].*)$', st, re.S)
        m2 = re.match(name + r'\s+(\w+)\s*=\s*' + name + r'\((.*)\)$', st, re.S) or re.match(name + r'\s+(\w+)\((.*)\)$', st, re.S)
        if m2:
            obj[m2.group(1)] = (name, [num(x, env) for x in split(m2.group(2))])
            hist[m2.group(1)] = []
            continue
        m3 = re.match(r'(\w+)\s*=\s*' + name + r'\((.*)\)$', st, re.S)
        if m3 and m3.group(1) in obj:
            obj[m3.group(1)] = (name, [num(x, env) for x in split(m3.group(2))])
            hist[m3.group(1)] = []
            continue
        m4 = re.match(r'(\w+)\.(set_\w+)\((.*)\)$', st, re.S)
        if m4:
            if m4.group(2) != 'set_masses': raise Exception(name + ' ' + st)
            hist[m4.group(1)] = hist[m4.group(1)] + [[num(x, env) for x in split(m4.group(3))]]
            continue
        m5 = re.match(r'i\s*\+=\s*(\w+)\.(\w+)\((.*)\)$', st, re.S)
        if m5:
            if m5.group(2) != 'test_2to2_amp2': continue
            a = split(m5.group(3))
            lm = re.match(r'LAMBDA_(\w+?)__(\w+)$', a[0])
            if not lm: raise Exception(name + ' ' + a[0])
            o = lm.group(1)
            res.append((name, obj[o][1], hist[o], lm.group(2), [num(x, env) for x in a[1:6]], arr[a[6]]))
            continue
        if m and st.startswith('ldouble') or (m and re.match(r'\w+\s*=', st) and not st.startswith('int')):
            for d in split(re.sub(r'^ldouble\s+', '', st)):
                k, v = d.split('=', 1)
                try: env[k.strip()] = num(v, env)
                except Exception as ex: print(name, d, ex, file=sys.stderr)
    return res


def main():
    repo = sys.argv[1]
    names = sorted(os.path.basename(p)[:-4] for p in glob.glob(f'{repo}/SM/*.cpp'))
    names.remove('test')
    allc = []
    for n in names:
        c = cases(repo, n)
        if not c: print('no cases', n, file=sys.stderr)
        allc += c
    print(json.dumps(allc))


main()

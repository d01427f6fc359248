"""Translate the example class of user-dir (user-dir/eemm.cpp) with translate.py into lean/Verif/SM/Proc/User.lean.

usage: python3 user.py REPO OUT.lean
The class has the name of one in SM, so it is called userEemm in Lean. `spinas::` is dropped first: translate.py expects the classes inside the namespace.
"""
import os, re, subprocess, sys, tempfile

repo, out = sys.argv[1:3]
here = os.path.dirname(os.path.abspath(__file__))
with tempfile.TemporaryDirectory() as tmp:
    os.makedirs(tmp + '/SM/include')
    os.makedirs(tmp + '/out')
    for a, b in [('eemm.cpp', 'eemm.cpp'), ('include/eemm.h', 'include/eemm.h')]:
        text = open(f'{repo}/user-dir/{a}').read().replace('spinas::', '')
        open(f'{tmp}/SM/{b}', 'w').write(text)
    open(tmp + '/SM/test.cpp', 'w').close()
    subprocess.check_call([sys.executable, here + '/translate.py', tmp, tmp + '/out'])
    text = open(tmp + '/out/G01.lean').read()
text = text.replace('Generated by tools/sm/translate.py from SM/*.cpp: eemm.', 'Generated by tools/sm/user.py from user-dir/eemm.cpp.')
text = text.replace('SM/eemm.cpp', 'user-dir/eemm.cpp').replace('SM/include/eemm.h', 'user-dir/include/eemm.h')
text = re.sub(r'(namespace|end) eemm\b', r'\1 userEemm', text).replace('def eemm :', 'def userEemm :').replace(' eemm.', ' userEemm.').replace('[eemm.', '[userEemm.')
open(out, 'w').write(text)

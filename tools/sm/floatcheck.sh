#!/bin/sh
# Validate the translation: run the translated classes in double precision on the tables in SM/*.cpp.
# usage: floatcheck.sh REPO WORKDIR
here=$(cd "$(dirname "$0")" && pwd)
mkdir -p "$2"
python3 "$here/tests.py" "$1" > "$2/cases.json"
cp "$here/floatcheck.lean.in" "$2/FloatCheck.lean"
cd "$here/../../lean" && lake env lean --run "$2/FloatCheck.lean" "$2/cases.json"

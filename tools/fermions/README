Generator of lean/Verif/SM/FermionRows.lean (rows.py) and lean/Verif/SM/Fermions/*.lean (emit.py).
reads.txt: `#eval` of divides, reads, ends and starts of all rows. run.py NAME... checks single classes.

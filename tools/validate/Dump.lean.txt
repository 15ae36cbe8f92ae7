import Verif.Model.Dump
open Verif
def main : IO Unit := IO.print (String.ofList dumpEpv00)

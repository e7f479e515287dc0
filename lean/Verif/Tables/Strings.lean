import Verif.Tables.Packed
/-! Generated by tools/gen_tables.py - do not edit. -/
namespace Pokers

def INDEX_TO_HAND.p0 : List (List Char) := [
  ['A', 's', 'A', 'h'],
  ['A', 's', 'A', 'c'],
  ['A', 's', 'A', 'd'],
  ['A', 'h', 'A', 'c'],
  ['A', 'h', 'A', 'd'],
  ['A', 'c', 'A', 'd'],
  ['K', 's', 'K', 'h'],
  ['K', 's', 'K', 'c'],
  ['K', 's', 'K', 'd'],
  ['K', 'h', 'K', 'c'],
  ['K', 'h', 'K', 'd'],
  ['K', 'c', 'K', 'd'],
  ['Q', 's', 'Q', 'h'],
  ['Q', 's', 'Q', 'c'],
  ['Q', 's', 'Q', 'd'],
  ['Q', 'h', 'Q', 'c'],
  ['Q', 'h', 'Q', 'd'],
  ['Q', 'c', 'Q', 'd'],
  ['J', 's', 'J', 'h'],
  ['J', 's', 'J', 'c'],
  ['J', 's', 'J', 'd'],
  ['J', 'h', 'J', 'c'],
  ['J', 'h', 'J', 'd'],
  ['J', 'c', 'J', 'd'],
  ['T', 's', 'T', 'h'],
  ['T', 's', 'T', 'c'],
  ['T', 's', 'T', 'd'],
  ['T', 'h', 'T', 'c'],
  ['T', 'h', 'T', 'd'],
  ['T', 'c', 'T', 'd'],
  ['9', 's', '9', 'h'],
  ['9', 's', '9', 'c'],
  ['9', 's', '9', 'd'],
  ['9', 'h', '9', 'c'],
  ['9', 'h', '9', 'd'],
  ['9', 'c', '9', 'd'],
  ['8', 's', '8', 'h'],
  ['8', 's', '8', 'c'],
  ['8', 's', '8', 'd'],
  ['8', 'h', '8', 'c'],
  ['8', 'h', '8', 'd'],
  ['8', 'c', '8', 'd'],
  ['7', 's', '7', 'h'],
  ['7', 's', '7', 'c'],
  ['7', 's', '7', 'd'],
  ['7', 'h', '7', 'c'],
  ['7', 'h', '7', 'd'],
  ['7', 'c', '7', 'd'],
  ['6', 's', '6', 'h'],
  ['6', 's', '6', 'c'],
  ['6', 's', '6', 'd'],
  ['6', 'h', '6', 'c'],
  ['6', 'h', '6', 'd'],
  ['6', 'c', '6', 'd'],
  ['5', 's', '5', 'h'],
  ['5', 's', '5', 'c'],
  ['5', 's', '5', 'd'],
  ['5', 'h', '5', 'c'],
  ['5', 'h', '5', 'd'],
  ['5', 'c', '5', 'd'],
  ['4', 's', '4', 'h'],
  ['4', 's', '4', 'c'],
  ['4', 's', '4', 'd'],
  ['4', 'h', '4', 'c'],
  ['4', 'h', '4', 'd'],
  ['4', 'c', '4', 'd'],
  ['3', 's', '3', 'h'],
  ['3', 's', '3', 'c'],
  ['3', 's', '3', 'd'],
  ['3', 'h', '3', 'c'],
  ['3', 'h', '3', 'd'],
  ['3', 'c', '3', 'd'],
  ['2', 's', '2', 'h'],
  ['2', 's', '2', 'c'],
  ['2', 's', '2', 'd'],
  ['2', 'h', '2', 'c'],
  ['2', 'h', '2', 'd'],
  ['2', 'c', '2', 'd']]
def INDEX_TO_HAND.p1 : List (List Char) := [
  ['A', 's', 'K', 's'],
  ['A', 'h', 'K', 'h'],
  ['A', 'c', 'K', 'c'],
  ['A', 'd', 'K', 'd'],
  ['A', 's', 'Q', 's'],
  ['A', 'h', 'Q', 'h'],
  ['A', 'c', 'Q', 'c'],
  ['A', 'd', 'Q', 'd'],
  ['A', 's', 'J', 's'],
  ['A', 'h', 'J', 'h'],
  ['A', 'c', 'J', 'c'],
  ['A', 'd', 'J', 'd'],
  ['A', 's', 'T', 's'],
  ['A', 'h', 'T', 'h'],
  ['A', 'c', 'T', 'c'],
  ['A', 'd', 'T', 'd'],
  ['A', 's', '9', 's'],
  ['A', 'h', '9', 'h'],
  ['A', 'c', '9', 'c'],
  ['A', 'd', '9', 'd'],
  ['A', 's', '8', 's'],
  ['A', 'h', '8', 'h'],
  ['A', 'c', '8', 'c'],
  ['A', 'd', '8', 'd'],
  ['A', 's', '7', 's'],
  ['A', 'h', '7', 'h'],
  ['A', 'c', '7', 'c'],
  ['A', 'd', '7', 'd'],
  ['A', 's', '6', 's'],
  ['A', 'h', '6', 'h'],
  ['A', 'c', '6', 'c'],
  ['A', 'd', '6', 'd'],
  ['A', 's', '5', 's'],
  ['A', 'h', '5', 'h'],
  ['A', 'c', '5', 'c'],
  ['A', 'd', '5', 'd'],
  ['A', 's', '4', 's'],
  ['A', 'h', '4', 'h'],
  ['A', 'c', '4', 'c'],
  ['A', 'd', '4', 'd'],
  ['A', 's', '3', 's'],
  ['A', 'h', '3', 'h'],
  ['A', 'c', '3', 'c'],
  ['A', 'd', '3', 'd'],
  ['A', 's', '2', 's'],
  ['A', 'h', '2', 'h'],
  ['A', 'c', '2', 'c'],
  ['A', 'd', '2', 'd'],
  ['K', 's', 'Q', 's'],
  ['K', 'h', 'Q', 'h'],
  ['K', 'c', 'Q', 'c'],
  ['K', 'd', 'Q', 'd'],
  ['K', 's', 'J', 's'],
  ['K', 'h', 'J', 'h'],
  ['K', 'c', 'J', 'c'],
  ['K', 'd', 'J', 'd'],
  ['K', 's', 'T', 's'],
  ['K', 'h', 'T', 'h'],
  ['K', 'c', 'T', 'c'],
  ['K', 'd', 'T', 'd'],
  ['K', 's', '9', 's'],
  ['K', 'h', '9', 'h'],
  ['K', 'c', '9', 'c'],
  ['K', 'd', '9', 'd'],
  ['K', 's', '8', 's'],
  ['K', 'h', '8', 'h'],
  ['K', 'c', '8', 'c'],
  ['K', 'd', '8', 'd'],
  ['K', 's', '7', 's'],
  ['K', 'h', '7', 'h'],
  ['K', 'c', '7', 'c'],
  ['K', 'd', '7', 'd'],
  ['K', 's', '6', 's'],
  ['K', 'h', '6', 'h'],
  ['K', 'c', '6', 'c'],
  ['K', 'd', '6', 'd'],
  ['K', 's', '5', 's'],
  ['K', 'h', '5', 'h']]
def INDEX_TO_HAND.p2 : List (List Char) := [
  ['K', 'c', '5', 'c'],
  ['K', 'd', '5', 'd'],
  ['K', 's', '4', 's'],
  ['K', 'h', '4', 'h'],
  ['K', 'c', '4', 'c'],
  ['K', 'd', '4', 'd'],
  ['K', 's', '3', 's'],
  ['K', 'h', '3', 'h'],
  ['K', 'c', '3', 'c'],
  ['K', 'd', '3', 'd'],
  ['K', 's', '2', 's'],
  ['K', 'h', '2', 'h'],
  ['K', 'c', '2', 'c'],
  ['K', 'd', '2', 'd'],
  ['Q', 's', 'J', 's'],
  ['Q', 'h', 'J', 'h'],
  ['Q', 'c', 'J', 'c'],
  ['Q', 'd', 'J', 'd'],
  ['Q', 's', 'T', 's'],
  ['Q', 'h', 'T', 'h'],
  ['Q', 'c', 'T', 'c'],
  ['Q', 'd', 'T', 'd'],
  ['Q', 's', '9', 's'],
  ['Q', 'h', '9', 'h'],
  ['Q', 'c', '9', 'c'],
  ['Q', 'd', '9', 'd'],
  ['Q', 's', '8', 's'],
  ['Q', 'h', '8', 'h'],
  ['Q', 'c', '8', 'c'],
  ['Q', 'd', '8', 'd'],
  ['Q', 's', '7', 's'],
  ['Q', 'h', '7', 'h'],
  ['Q', 'c', '7', 'c'],
  ['Q', 'd', '7', 'd'],
  ['Q', 's', '6', 's'],
  ['Q', 'h', '6', 'h'],
  ['Q', 'c', '6', 'c'],
  ['Q', 'd', '6', 'd'],
  ['Q', 's', '5', 's'],
  ['Q', 'h', '5', 'h'],
  ['Q', 'c', '5', 'c'],
  ['Q', 'd', '5', 'd'],
  ['Q', 's', '4', 's'],
  ['Q', 'h', '4', 'h'],
  ['Q', 'c', '4', 'c'],
  ['Q', 'd', '4', 'd'],
  ['Q', 's', '3', 's'],
  ['Q', 'h', '3', 'h'],
  ['Q', 'c', '3', 'c'],
  ['Q', 'd', '3', 'd'],
  ['Q', 's', '2', 's'],
  ['Q', 'h', '2', 'h'],
  ['Q', 'c', '2', 'c'],
  ['Q', 'd', '2', 'd'],
  ['J', 's', 'T', 's'],
  ['J', 'h', 'T', 'h'],
  ['J', 'c', 'T', 'c'],
  ['J', 'd', 'T', 'd'],
  ['J', 's', '9', 's'],
  ['J', 'h', '9', 'h'],
  ['J', 'c', '9', 'c'],
  ['J', 'd', '9', 'd'],
  ['J', 's', '8', 's'],
  ['J', 'h', '8', 'h'],
  ['J', 'c', '8', 'c'],
  ['J', 'd', '8', 'd'],
  ['J', 's', '7', 's'],
  ['J', 'h', '7', 'h'],
  ['J', 'c', '7', 'c'],
  ['J', 'd', '7', 'd'],
  ['J', 's', '6', 's'],
  ['J', 'h', '6', 'h'],
  ['J', 'c', '6', 'c'],
  ['J', 'd', '6', 'd'],
  ['J', 's', '5', 's'],
  ['J', 'h', '5', 'h'],
  ['J', 'c', '5', 'c'],
  ['J', 'd', '5', 'd']]
def INDEX_TO_HAND.p3 : List (List Char) := [
  ['J', 's', '4', 's'],
  ['J', 'h', '4', 'h'],
  ['J', 'c', '4', 'c'],
  ['J', 'd', '4', 'd'],
  ['J', 's', '3', 's'],
  ['J', 'h', '3', 'h'],
  ['J', 'c', '3', 'c'],
  ['J', 'd', '3', 'd'],
  ['J', 's', '2', 's'],
  ['J', 'h', '2', 'h'],
  ['J', 'c', '2', 'c'],
  ['J', 'd', '2', 'd'],
  ['T', 's', '9', 's'],
  ['T', 'h', '9', 'h'],
  ['T', 'c', '9', 'c'],
  ['T', 'd', '9', 'd'],
  ['T', 's', '8', 's'],
  ['T', 'h', '8', 'h'],
  ['T', 'c', '8', 'c'],
  ['T', 'd', '8', 'd'],
  ['T', 's', '7', 's'],
  ['T', 'h', '7', 'h'],
  ['T', 'c', '7', 'c'],
  ['T', 'd', '7', 'd'],
  ['T', 's', '6', 's'],
  ['T', 'h', '6', 'h'],
  ['T', 'c', '6', 'c'],
  ['T', 'd', '6', 'd'],
  ['T', 's', '5', 's'],
  ['T', 'h', '5', 'h'],
  ['T', 'c', '5', 'c'],
  ['T', 'd', '5', 'd'],
  ['T', 's', '4', 's'],
  ['T', 'h', '4', 'h'],
  ['T', 'c', '4', 'c'],
  ['T', 'd', '4', 'd'],
  ['T', 's', '3', 's'],
  ['T', 'h', '3', 'h'],
  ['T', 'c', '3', 'c'],
  ['T', 'd', '3', 'd'],
  ['T', 's', '2', 's'],
  ['T', 'h', '2', 'h'],
  ['T', 'c', '2', 'c'],
  ['T', 'd', '2', 'd'],
  ['9', 's', '8', 's'],
  ['9', 'h', '8', 'h'],
  ['9', 'c', '8', 'c'],
  ['9', 'd', '8', 'd'],
  ['9', 's', '7', 's'],
  ['9', 'h', '7', 'h'],
  ['9', 'c', '7', 'c'],
  ['9', 'd', '7', 'd'],
  ['9', 's', '6', 's'],
  ['9', 'h', '6', 'h'],
  ['9', 'c', '6', 'c'],
  ['9', 'd', '6', 'd'],
  ['9', 's', '5', 's'],
  ['9', 'h', '5', 'h'],
  ['9', 'c', '5', 'c'],
  ['9', 'd', '5', 'd'],
  ['9', 's', '4', 's'],
  ['9', 'h', '4', 'h'],
  ['9', 'c', '4', 'c'],
  ['9', 'd', '4', 'd'],
  ['9', 's', '3', 's'],
  ['9', 'h', '3', 'h'],
  ['9', 'c', '3', 'c'],
  ['9', 'd', '3', 'd'],
  ['9', 's', '2', 's'],
  ['9', 'h', '2', 'h'],
  ['9', 'c', '2', 'c'],
  ['9', 'd', '2', 'd'],
  ['8', 's', '7', 's'],
  ['8', 'h', '7', 'h'],
  ['8', 'c', '7', 'c'],
  ['8', 'd', '7', 'd'],
  ['8', 's', '6', 's'],
  ['8', 'h', '6', 'h']]
def INDEX_TO_HAND.p4 : List (List Char) := [
  ['8', 'c', '6', 'c'],
  ['8', 'd', '6', 'd'],
  ['8', 's', '5', 's'],
  ['8', 'h', '5', 'h'],
  ['8', 'c', '5', 'c'],
  ['8', 'd', '5', 'd'],
  ['8', 's', '4', 's'],
  ['8', 'h', '4', 'h'],
  ['8', 'c', '4', 'c'],
  ['8', 'd', '4', 'd'],
  ['8', 's', '3', 's'],
  ['8', 'h', '3', 'h'],
  ['8', 'c', '3', 'c'],
  ['8', 'd', '3', 'd'],
  ['8', 's', '2', 's'],
  ['8', 'h', '2', 'h'],
  ['8', 'c', '2', 'c'],
  ['8', 'd', '2', 'd'],
  ['7', 's', '6', 's'],
  ['7', 'h', '6', 'h'],
  ['7', 'c', '6', 'c'],
  ['7', 'd', '6', 'd'],
  ['7', 's', '5', 's'],
  ['7', 'h', '5', 'h'],
  ['7', 'c', '5', 'c'],
  ['7', 'd', '5', 'd'],
  ['7', 's', '4', 's'],
  ['7', 'h', '4', 'h'],
  ['7', 'c', '4', 'c'],
  ['7', 'd', '4', 'd'],
  ['7', 's', '3', 's'],
  ['7', 'h', '3', 'h'],
  ['7', 'c', '3', 'c'],
  ['7', 'd', '3', 'd'],
  ['7', 's', '2', 's'],
  ['7', 'h', '2', 'h'],
  ['7', 'c', '2', 'c'],
  ['7', 'd', '2', 'd'],
  ['6', 's', '5', 's'],
  ['6', 'h', '5', 'h'],
  ['6', 'c', '5', 'c'],
  ['6', 'd', '5', 'd'],
  ['6', 's', '4', 's'],
  ['6', 'h', '4', 'h'],
  ['6', 'c', '4', 'c'],
  ['6', 'd', '4', 'd'],
  ['6', 's', '3', 's'],
  ['6', 'h', '3', 'h'],
  ['6', 'c', '3', 'c'],
  ['6', 'd', '3', 'd'],
  ['6', 's', '2', 's'],
  ['6', 'h', '2', 'h'],
  ['6', 'c', '2', 'c'],
  ['6', 'd', '2', 'd'],
  ['5', 's', '4', 's'],
  ['5', 'h', '4', 'h'],
  ['5', 'c', '4', 'c'],
  ['5', 'd', '4', 'd'],
  ['5', 's', '3', 's'],
  ['5', 'h', '3', 'h'],
  ['5', 'c', '3', 'c'],
  ['5', 'd', '3', 'd'],
  ['5', 's', '2', 's'],
  ['5', 'h', '2', 'h'],
  ['5', 'c', '2', 'c'],
  ['5', 'd', '2', 'd'],
  ['4', 's', '3', 's'],
  ['4', 'h', '3', 'h'],
  ['4', 'c', '3', 'c'],
  ['4', 'd', '3', 'd'],
  ['4', 's', '2', 's'],
  ['4', 'h', '2', 'h'],
  ['4', 'c', '2', 'c'],
  ['4', 'd', '2', 'd'],
  ['3', 's', '2', 's'],
  ['3', 'h', '2', 'h'],
  ['3', 'c', '2', 'c'],
  ['3', 'd', '2', 'd']]
def INDEX_TO_HAND.p5 : List (List Char) := [
  ['A', 's', 'K', 'h'],
  ['A', 's', 'K', 'c'],
  ['A', 's', 'K', 'd'],
  ['A', 'h', 'K', 's'],
  ['A', 'h', 'K', 'c'],
  ['A', 'h', 'K', 'd'],
  ['A', 'c', 'K', 's'],
  ['A', 'c', 'K', 'h'],
  ['A', 'c', 'K', 'd'],
  ['A', 'd', 'K', 's'],
  ['A', 'd', 'K', 'h'],
  ['A', 'd', 'K', 'c'],
  ['A', 's', 'Q', 'h'],
  ['A', 's', 'Q', 'c'],
  ['A', 's', 'Q', 'd'],
  ['A', 'h', 'Q', 's'],
  ['A', 'h', 'Q', 'c'],
  ['A', 'h', 'Q', 'd'],
  ['A', 'c', 'Q', 's'],
  ['A', 'c', 'Q', 'h'],
  ['A', 'c', 'Q', 'd'],
  ['A', 'd', 'Q', 's'],
  ['A', 'd', 'Q', 'h'],
  ['A', 'd', 'Q', 'c'],
  ['A', 's', 'J', 'h'],
  ['A', 's', 'J', 'c'],
  ['A', 's', 'J', 'd'],
  ['A', 'h', 'J', 's'],
  ['A', 'h', 'J', 'c'],
  ['A', 'h', 'J', 'd'],
  ['A', 'c', 'J', 's'],
  ['A', 'c', 'J', 'h'],
  ['A', 'c', 'J', 'd'],
  ['A', 'd', 'J', 's'],
  ['A', 'd', 'J', 'h'],
  ['A', 'd', 'J', 'c'],
  ['A', 's', 'T', 'h'],
  ['A', 's', 'T', 'c'],
  ['A', 's', 'T', 'd'],
  ['A', 'h', 'T', 's'],
  ['A', 'h', 'T', 'c'],
  ['A', 'h', 'T', 'd'],
  ['A', 'c', 'T', 's'],
  ['A', 'c', 'T', 'h'],
  ['A', 'c', 'T', 'd'],
  ['A', 'd', 'T', 's'],
  ['A', 'd', 'T', 'h'],
  ['A', 'd', 'T', 'c'],
  ['A', 's', '9', 'h'],
  ['A', 's', '9', 'c'],
  ['A', 's', '9', 'd'],
  ['A', 'h', '9', 's'],
  ['A', 'h', '9', 'c'],
  ['A', 'h', '9', 'd'],
  ['A', 'c', '9', 's'],
  ['A', 'c', '9', 'h'],
  ['A', 'c', '9', 'd'],
  ['A', 'd', '9', 's'],
  ['A', 'd', '9', 'h'],
  ['A', 'd', '9', 'c'],
  ['A', 's', '8', 'h'],
  ['A', 's', '8', 'c'],
  ['A', 's', '8', 'd'],
  ['A', 'h', '8', 's'],
  ['A', 'h', '8', 'c'],
  ['A', 'h', '8', 'd'],
  ['A', 'c', '8', 's'],
  ['A', 'c', '8', 'h'],
  ['A', 'c', '8', 'd'],
  ['A', 'd', '8', 's'],
  ['A', 'd', '8', 'h'],
  ['A', 'd', '8', 'c'],
  ['A', 's', '7', 'h'],
  ['A', 's', '7', 'c'],
  ['A', 's', '7', 'd'],
  ['A', 'h', '7', 's'],
  ['A', 'h', '7', 'c'],
  ['A', 'h', '7', 'd']]
def INDEX_TO_HAND.p6 : List (List Char) := [
  ['A', 'c', '7', 's'],
  ['A', 'c', '7', 'h'],
  ['A', 'c', '7', 'd'],
  ['A', 'd', '7', 's'],
  ['A', 'd', '7', 'h'],
  ['A', 'd', '7', 'c'],
  ['A', 's', '6', 'h'],
  ['A', 's', '6', 'c'],
  ['A', 's', '6', 'd'],
  ['A', 'h', '6', 's'],
  ['A', 'h', '6', 'c'],
  ['A', 'h', '6', 'd'],
  ['A', 'c', '6', 's'],
  ['A', 'c', '6', 'h'],
  ['A', 'c', '6', 'd'],
  ['A', 'd', '6', 's'],
  ['A', 'd', '6', 'h'],
  ['A', 'd', '6', 'c'],
  ['A', 's', '5', 'h'],
  ['A', 's', '5', 'c'],
  ['A', 's', '5', 'd'],
  ['A', 'h', '5', 's'],
  ['A', 'h', '5', 'c'],
  ['A', 'h', '5', 'd'],
  ['A', 'c', '5', 's'],
  ['A', 'c', '5', 'h'],
  ['A', 'c', '5', 'd'],
  ['A', 'd', '5', 's'],
  ['A', 'd', '5', 'h'],
  ['A', 'd', '5', 'c'],
  ['A', 's', '4', 'h'],
  ['A', 's', '4', 'c'],
  ['A', 's', '4', 'd'],
  ['A', 'h', '4', 's'],
  ['A', 'h', '4', 'c'],
  ['A', 'h', '4', 'd'],
  ['A', 'c', '4', 's'],
  ['A', 'c', '4', 'h'],
  ['A', 'c', '4', 'd'],
  ['A', 'd', '4', 's'],
  ['A', 'd', '4', 'h'],
  ['A', 'd', '4', 'c'],
  ['A', 's', '3', 'h'],
  ['A', 's', '3', 'c'],
  ['A', 's', '3', 'd'],
  ['A', 'h', '3', 's'],
  ['A', 'h', '3', 'c'],
  ['A', 'h', '3', 'd'],
  ['A', 'c', '3', 's'],
  ['A', 'c', '3', 'h'],
  ['A', 'c', '3', 'd'],
  ['A', 'd', '3', 's'],
  ['A', 'd', '3', 'h'],
  ['A', 'd', '3', 'c'],
  ['A', 's', '2', 'h'],
  ['A', 's', '2', 'c'],
  ['A', 's', '2', 'd'],
  ['A', 'h', '2', 's'],
  ['A', 'h', '2', 'c'],
  ['A', 'h', '2', 'd'],
  ['A', 'c', '2', 's'],
  ['A', 'c', '2', 'h'],
  ['A', 'c', '2', 'd'],
  ['A', 'd', '2', 's'],
  ['A', 'd', '2', 'h'],
  ['A', 'd', '2', 'c'],
  ['K', 's', 'Q', 'h'],
  ['K', 's', 'Q', 'c'],
  ['K', 's', 'Q', 'd'],
  ['K', 'h', 'Q', 's'],
  ['K', 'h', 'Q', 'c'],
  ['K', 'h', 'Q', 'd'],
  ['K', 'c', 'Q', 's'],
  ['K', 'c', 'Q', 'h'],
  ['K', 'c', 'Q', 'd'],
  ['K', 'd', 'Q', 's'],
  ['K', 'd', 'Q', 'h'],
  ['K', 'd', 'Q', 'c']]
def INDEX_TO_HAND.p7 : List (List Char) := [
  ['K', 's', 'J', 'h'],
  ['K', 's', 'J', 'c'],
  ['K', 's', 'J', 'd'],
  ['K', 'h', 'J', 's'],
  ['K', 'h', 'J', 'c'],
  ['K', 'h', 'J', 'd'],
  ['K', 'c', 'J', 's'],
  ['K', 'c', 'J', 'h'],
  ['K', 'c', 'J', 'd'],
  ['K', 'd', 'J', 's'],
  ['K', 'd', 'J', 'h'],
  ['K', 'd', 'J', 'c'],
  ['K', 's', 'T', 'h'],
  ['K', 's', 'T', 'c'],
  ['K', 's', 'T', 'd'],
  ['K', 'h', 'T', 's'],
  ['K', 'h', 'T', 'c'],
  ['K', 'h', 'T', 'd'],
  ['K', 'c', 'T', 's'],
  ['K', 'c', 'T', 'h'],
  ['K', 'c', 'T', 'd'],
  ['K', 'd', 'T', 's'],
  ['K', 'd', 'T', 'h'],
  ['K', 'd', 'T', 'c'],
  ['K', 's', '9', 'h'],
  ['K', 's', '9', 'c'],
  ['K', 's', '9', 'd'],
  ['K', 'h', '9', 's'],
  ['K', 'h', '9', 'c'],
  ['K', 'h', '9', 'd'],
  ['K', 'c', '9', 's'],
  ['K', 'c', '9', 'h'],
  ['K', 'c', '9', 'd'],
  ['K', 'd', '9', 's'],
  ['K', 'd', '9', 'h'],
  ['K', 'd', '9', 'c'],
  ['K', 's', '8', 'h'],
  ['K', 's', '8', 'c'],
  ['K', 's', '8', 'd'],
  ['K', 'h', '8', 's'],
  ['K', 'h', '8', 'c'],
  ['K', 'h', '8', 'd'],
  ['K', 'c', '8', 's'],
  ['K', 'c', '8', 'h'],
  ['K', 'c', '8', 'd'],
  ['K', 'd', '8', 's'],
  ['K', 'd', '8', 'h'],
  ['K', 'd', '8', 'c'],
  ['K', 's', '7', 'h'],
  ['K', 's', '7', 'c'],
  ['K', 's', '7', 'd'],
  ['K', 'h', '7', 's'],
  ['K', 'h', '7', 'c'],
  ['K', 'h', '7', 'd'],
  ['K', 'c', '7', 's'],
  ['K', 'c', '7', 'h'],
  ['K', 'c', '7', 'd'],
  ['K', 'd', '7', 's'],
  ['K', 'd', '7', 'h'],
  ['K', 'd', '7', 'c'],
  ['K', 's', '6', 'h'],
  ['K', 's', '6', 'c'],
  ['K', 's', '6', 'd'],
  ['K', 'h', '6', 's'],
  ['K', 'h', '6', 'c'],
  ['K', 'h', '6', 'd'],
  ['K', 'c', '6', 's'],
  ['K', 'c', '6', 'h'],
  ['K', 'c', '6', 'd'],
  ['K', 'd', '6', 's'],
  ['K', 'd', '6', 'h'],
  ['K', 'd', '6', 'c'],
  ['K', 's', '5', 'h'],
  ['K', 's', '5', 'c'],
  ['K', 's', '5', 'd'],
  ['K', 'h', '5', 's'],
  ['K', 'h', '5', 'c'],
  ['K', 'h', '5', 'd']]
def INDEX_TO_HAND.p8 : List (List Char) := [
  ['K', 'c', '5', 's'],
  ['K', 'c', '5', 'h'],
  ['K', 'c', '5', 'd'],
  ['K', 'd', '5', 's'],
  ['K', 'd', '5', 'h'],
  ['K', 'd', '5', 'c'],
  ['K', 's', '4', 'h'],
  ['K', 's', '4', 'c'],
  ['K', 's', '4', 'd'],
  ['K', 'h', '4', 's'],
  ['K', 'h', '4', 'c'],
  ['K', 'h', '4', 'd'],
  ['K', 'c', '4', 's'],
  ['K', 'c', '4', 'h'],
  ['K', 'c', '4', 'd'],
  ['K', 'd', '4', 's'],
  ['K', 'd', '4', 'h'],
  ['K', 'd', '4', 'c'],
  ['K', 's', '3', 'h'],
  ['K', 's', '3', 'c'],
  ['K', 's', '3', 'd'],
  ['K', 'h', '3', 's'],
  ['K', 'h', '3', 'c'],
  ['K', 'h', '3', 'd'],
  ['K', 'c', '3', 's'],
  ['K', 'c', '3', 'h'],
  ['K', 'c', '3', 'd'],
  ['K', 'd', '3', 's'],
  ['K', 'd', '3', 'h'],
  ['K', 'd', '3', 'c'],
  ['K', 's', '2', 'h'],
  ['K', 's', '2', 'c'],
  ['K', 's', '2', 'd'],
  ['K', 'h', '2', 's'],
  ['K', 'h', '2', 'c'],
  ['K', 'h', '2', 'd'],
  ['K', 'c', '2', 's'],
  ['K', 'c', '2', 'h'],
  ['K', 'c', '2', 'd'],
  ['K', 'd', '2', 's'],
  ['K', 'd', '2', 'h'],
  ['K', 'd', '2', 'c'],
  ['Q', 's', 'J', 'h'],
  ['Q', 's', 'J', 'c'],
  ['Q', 's', 'J', 'd'],
  ['Q', 'h', 'J', 's'],
  ['Q', 'h', 'J', 'c'],
  ['Q', 'h', 'J', 'd'],
  ['Q', 'c', 'J', 's'],
  ['Q', 'c', 'J', 'h'],
  ['Q', 'c', 'J', 'd'],
  ['Q', 'd', 'J', 's'],
  ['Q', 'd', 'J', 'h'],
  ['Q', 'd', 'J', 'c'],
  ['Q', 's', 'T', 'h'],
  ['Q', 's', 'T', 'c'],
  ['Q', 's', 'T', 'd'],
  ['Q', 'h', 'T', 's'],
  ['Q', 'h', 'T', 'c'],
  ['Q', 'h', 'T', 'd'],
  ['Q', 'c', 'T', 's'],
  ['Q', 'c', 'T', 'h'],
  ['Q', 'c', 'T', 'd'],
  ['Q', 'd', 'T', 's'],
  ['Q', 'd', 'T', 'h'],
  ['Q', 'd', 'T', 'c'],
  ['Q', 's', '9', 'h'],
  ['Q', 's', '9', 'c'],
  ['Q', 's', '9', 'd'],
  ['Q', 'h', '9', 's'],
  ['Q', 'h', '9', 'c'],
  ['Q', 'h', '9', 'd'],
  ['Q', 'c', '9', 's'],
  ['Q', 'c', '9', 'h'],
  ['Q', 'c', '9', 'd'],
  ['Q', 'd', '9', 's'],
  ['Q', 'd', '9', 'h'],
  ['Q', 'd', '9', 'c']]
def INDEX_TO_HAND.p9 : List (List Char) := [
  ['Q', 's', '8', 'h'],
  ['Q', 's', '8', 'c'],
  ['Q', 's', '8', 'd'],
  ['Q', 'h', '8', 's'],
  ['Q', 'h', '8', 'c'],
  ['Q', 'h', '8', 'd'],
  ['Q', 'c', '8', 's'],
  ['Q', 'c', '8', 'h'],
  ['Q', 'c', '8', 'd'],
  ['Q', 'd', '8', 's'],
  ['Q', 'd', '8', 'h'],
  ['Q', 'd', '8', 'c'],
  ['Q', 's', '7', 'h'],
  ['Q', 's', '7', 'c'],
  ['Q', 's', '7', 'd'],
  ['Q', 'h', '7', 's'],
  ['Q', 'h', '7', 'c'],
  ['Q', 'h', '7', 'd'],
  ['Q', 'c', '7', 's'],
  ['Q', 'c', '7', 'h'],
  ['Q', 'c', '7', 'd'],
  ['Q', 'd', '7', 's'],
  ['Q', 'd', '7', 'h'],
  ['Q', 'd', '7', 'c'],
  ['Q', 's', '6', 'h'],
  ['Q', 's', '6', 'c'],
  ['Q', 's', '6', 'd'],
  ['Q', 'h', '6', 's'],
  ['Q', 'h', '6', 'c'],
  ['Q', 'h', '6', 'd'],
  ['Q', 'c', '6', 's'],
  ['Q', 'c', '6', 'h'],
  ['Q', 'c', '6', 'd'],
  ['Q', 'd', '6', 's'],
  ['Q', 'd', '6', 'h'],
  ['Q', 'd', '6', 'c'],
  ['Q', 's', '5', 'h'],
  ['Q', 's', '5', 'c'],
  ['Q', 's', '5', 'd'],
  ['Q', 'h', '5', 's'],
  ['Q', 'h', '5', 'c'],
  ['Q', 'h', '5', 'd'],
  ['Q', 'c', '5', 's'],
  ['Q', 'c', '5', 'h'],
  ['Q', 'c', '5', 'd'],
  ['Q', 'd', '5', 's'],
  ['Q', 'd', '5', 'h'],
  ['Q', 'd', '5', 'c'],
  ['Q', 's', '4', 'h'],
  ['Q', 's', '4', 'c'],
  ['Q', 's', '4', 'd'],
  ['Q', 'h', '4', 's'],
  ['Q', 'h', '4', 'c'],
  ['Q', 'h', '4', 'd'],
  ['Q', 'c', '4', 's'],
  ['Q', 'c', '4', 'h'],
  ['Q', 'c', '4', 'd'],
  ['Q', 'd', '4', 's'],
  ['Q', 'd', '4', 'h'],
  ['Q', 'd', '4', 'c'],
  ['Q', 's', '3', 'h'],
  ['Q', 's', '3', 'c'],
  ['Q', 's', '3', 'd'],
  ['Q', 'h', '3', 's'],
  ['Q', 'h', '3', 'c'],
  ['Q', 'h', '3', 'd'],
  ['Q', 'c', '3', 's'],
  ['Q', 'c', '3', 'h'],
  ['Q', 'c', '3', 'd'],
  ['Q', 'd', '3', 's'],
  ['Q', 'd', '3', 'h'],
  ['Q', 'd', '3', 'c'],
  ['Q', 's', '2', 'h'],
  ['Q', 's', '2', 'c'],
  ['Q', 's', '2', 'd'],
  ['Q', 'h', '2', 's'],
  ['Q', 'h', '2', 'c'],
  ['Q', 'h', '2', 'd']]
def INDEX_TO_HAND.p10 : List (List Char) := [
  ['Q', 'c', '2', 's'],
  ['Q', 'c', '2', 'h'],
  ['Q', 'c', '2', 'd'],
  ['Q', 'd', '2', 's'],
  ['Q', 'd', '2', 'h'],
  ['Q', 'd', '2', 'c'],
  ['J', 's', 'T', 'h'],
  ['J', 's', 'T', 'c'],
  ['J', 's', 'T', 'd'],
  ['J', 'h', 'T', 's'],
  ['J', 'h', 'T', 'c'],
  ['J', 'h', 'T', 'd'],
  ['J', 'c', 'T', 's'],
  ['J', 'c', 'T', 'h'],
  ['J', 'c', 'T', 'd'],
  ['J', 'd', 'T', 's'],
  ['J', 'd', 'T', 'h'],
  ['J', 'd', 'T', 'c'],
  ['J', 's', '9', 'h'],
  ['J', 's', '9', 'c'],
  ['J', 's', '9', 'd'],
  ['J', 'h', '9', 's'],
  ['J', 'h', '9', 'c'],
  ['J', 'h', '9', 'd'],
  ['J', 'c', '9', 's'],
  ['J', 'c', '9', 'h'],
  ['J', 'c', '9', 'd'],
  ['J', 'd', '9', 's'],
  ['J', 'd', '9', 'h'],
  ['J', 'd', '9', 'c'],
  ['J', 's', '8', 'h'],
  ['J', 's', '8', 'c'],
  ['J', 's', '8', 'd'],
  ['J', 'h', '8', 's'],
  ['J', 'h', '8', 'c'],
  ['J', 'h', '8', 'd'],
  ['J', 'c', '8', 's'],
  ['J', 'c', '8', 'h'],
  ['J', 'c', '8', 'd'],
  ['J', 'd', '8', 's'],
  ['J', 'd', '8', 'h'],
  ['J', 'd', '8', 'c'],
  ['J', 's', '7', 'h'],
  ['J', 's', '7', 'c'],
  ['J', 's', '7', 'd'],
  ['J', 'h', '7', 's'],
  ['J', 'h', '7', 'c'],
  ['J', 'h', '7', 'd'],
  ['J', 'c', '7', 's'],
  ['J', 'c', '7', 'h'],
  ['J', 'c', '7', 'd'],
  ['J', 'd', '7', 's'],
  ['J', 'd', '7', 'h'],
  ['J', 'd', '7', 'c'],
  ['J', 's', '6', 'h'],
  ['J', 's', '6', 'c'],
  ['J', 's', '6', 'd'],
  ['J', 'h', '6', 's'],
  ['J', 'h', '6', 'c'],
  ['J', 'h', '6', 'd'],
  ['J', 'c', '6', 's'],
  ['J', 'c', '6', 'h'],
  ['J', 'c', '6', 'd'],
  ['J', 'd', '6', 's'],
  ['J', 'd', '6', 'h'],
  ['J', 'd', '6', 'c'],
  ['J', 's', '5', 'h'],
  ['J', 's', '5', 'c'],
  ['J', 's', '5', 'd'],
  ['J', 'h', '5', 's'],
  ['J', 'h', '5', 'c'],
  ['J', 'h', '5', 'd'],
  ['J', 'c', '5', 's'],
  ['J', 'c', '5', 'h'],
  ['J', 'c', '5', 'd'],
  ['J', 'd', '5', 's'],
  ['J', 'd', '5', 'h'],
  ['J', 'd', '5', 'c']]
def INDEX_TO_HAND.p11 : List (List Char) := [
  ['J', 's', '4', 'h'],
  ['J', 's', '4', 'c'],
  ['J', 's', '4', 'd'],
  ['J', 'h', '4', 's'],
  ['J', 'h', '4', 'c'],
  ['J', 'h', '4', 'd'],
  ['J', 'c', '4', 's'],
  ['J', 'c', '4', 'h'],
  ['J', 'c', '4', 'd'],
  ['J', 'd', '4', 's'],
  ['J', 'd', '4', 'h'],
  ['J', 'd', '4', 'c'],
  ['J', 's', '3', 'h'],
  ['J', 's', '3', 'c'],
  ['J', 's', '3', 'd'],
  ['J', 'h', '3', 's'],
  ['J', 'h', '3', 'c'],
  ['J', 'h', '3', 'd'],
  ['J', 'c', '3', 's'],
  ['J', 'c', '3', 'h'],
  ['J', 'c', '3', 'd'],
  ['J', 'd', '3', 's'],
  ['J', 'd', '3', 'h'],
  ['J', 'd', '3', 'c'],
  ['J', 's', '2', 'h'],
  ['J', 's', '2', 'c'],
  ['J', 's', '2', 'd'],
  ['J', 'h', '2', 's'],
  ['J', 'h', '2', 'c'],
  ['J', 'h', '2', 'd'],
  ['J', 'c', '2', 's'],
  ['J', 'c', '2', 'h'],
  ['J', 'c', '2', 'd'],
  ['J', 'd', '2', 's'],
  ['J', 'd', '2', 'h'],
  ['J', 'd', '2', 'c'],
  ['T', 's', '9', 'h'],
  ['T', 's', '9', 'c'],
  ['T', 's', '9', 'd'],
  ['T', 'h', '9', 's'],
  ['T', 'h', '9', 'c'],
  ['T', 'h', '9', 'd'],
  ['T', 'c', '9', 's'],
  ['T', 'c', '9', 'h'],
  ['T', 'c', '9', 'd'],
  ['T', 'd', '9', 's'],
  ['T', 'd', '9', 'h'],
  ['T', 'd', '9', 'c'],
  ['T', 's', '8', 'h'],
  ['T', 's', '8', 'c'],
  ['T', 's', '8', 'd'],
  ['T', 'h', '8', 's'],
  ['T', 'h', '8', 'c'],
  ['T', 'h', '8', 'd'],
  ['T', 'c', '8', 's'],
  ['T', 'c', '8', 'h'],
  ['T', 'c', '8', 'd'],
  ['T', 'd', '8', 's'],
  ['T', 'd', '8', 'h'],
  ['T', 'd', '8', 'c'],
  ['T', 's', '7', 'h'],
  ['T', 's', '7', 'c'],
  ['T', 's', '7', 'd'],
  ['T', 'h', '7', 's'],
  ['T', 'h', '7', 'c'],
  ['T', 'h', '7', 'd'],
  ['T', 'c', '7', 's'],
  ['T', 'c', '7', 'h'],
  ['T', 'c', '7', 'd'],
  ['T', 'd', '7', 's'],
  ['T', 'd', '7', 'h'],
  ['T', 'd', '7', 'c'],
  ['T', 's', '6', 'h'],
  ['T', 's', '6', 'c'],
  ['T', 's', '6', 'd'],
  ['T', 'h', '6', 's'],
  ['T', 'h', '6', 'c'],
  ['T', 'h', '6', 'd']]
def INDEX_TO_HAND.p12 : List (List Char) := [
  ['T', 'c', '6', 's'],
  ['T', 'c', '6', 'h'],
  ['T', 'c', '6', 'd'],
  ['T', 'd', '6', 's'],
  ['T', 'd', '6', 'h'],
  ['T', 'd', '6', 'c'],
  ['T', 's', '5', 'h'],
  ['T', 's', '5', 'c'],
  ['T', 's', '5', 'd'],
  ['T', 'h', '5', 's'],
  ['T', 'h', '5', 'c'],
  ['T', 'h', '5', 'd'],
  ['T', 'c', '5', 's'],
  ['T', 'c', '5', 'h'],
  ['T', 'c', '5', 'd'],
  ['T', 'd', '5', 's'],
  ['T', 'd', '5', 'h'],
  ['T', 'd', '5', 'c'],
  ['T', 's', '4', 'h'],
  ['T', 's', '4', 'c'],
  ['T', 's', '4', 'd'],
  ['T', 'h', '4', 's'],
  ['T', 'h', '4', 'c'],
  ['T', 'h', '4', 'd'],
  ['T', 'c', '4', 's'],
  ['T', 'c', '4', 'h'],
  ['T', 'c', '4', 'd'],
  ['T', 'd', '4', 's'],
  ['T', 'd', '4', 'h'],
  ['T', 'd', '4', 'c'],
  ['T', 's', '3', 'h'],
  ['T', 's', '3', 'c'],
  ['T', 's', '3', 'd'],
  ['T', 'h', '3', 's'],
  ['T', 'h', '3', 'c'],
  ['T', 'h', '3', 'd'],
  ['T', 'c', '3', 's'],
  ['T', 'c', '3', 'h'],
  ['T', 'c', '3', 'd'],
  ['T', 'd', '3', 's'],
  ['T', 'd', '3', 'h'],
  ['T', 'd', '3', 'c'],
  ['T', 's', '2', 'h'],
  ['T', 's', '2', 'c'],
  ['T', 's', '2', 'd'],
  ['T', 'h', '2', 's'],
  ['T', 'h', '2', 'c'],
  ['T', 'h', '2', 'd'],
  ['T', 'c', '2', 's'],
  ['T', 'c', '2', 'h'],
  ['T', 'c', '2', 'd'],
  ['T', 'd', '2', 's'],
  ['T', 'd', '2', 'h'],
  ['T', 'd', '2', 'c'],
  ['9', 's', '8', 'h'],
  ['9', 's', '8', 'c'],
  ['9', 's', '8', 'd'],
  ['9', 'h', '8', 's'],
  ['9', 'h', '8', 'c'],
  ['9', 'h', '8', 'd'],
  ['9', 'c', '8', 's'],
  ['9', 'c', '8', 'h'],
  ['9', 'c', '8', 'd'],
  ['9', 'd', '8', 's'],
  ['9', 'd', '8', 'h'],
  ['9', 'd', '8', 'c'],
  ['9', 's', '7', 'h'],
  ['9', 's', '7', 'c'],
  ['9', 's', '7', 'd'],
  ['9', 'h', '7', 's'],
  ['9', 'h', '7', 'c'],
  ['9', 'h', '7', 'd'],
  ['9', 'c', '7', 's'],
  ['9', 'c', '7', 'h'],
  ['9', 'c', '7', 'd'],
  ['9', 'd', '7', 's'],
  ['9', 'd', '7', 'h'],
  ['9', 'd', '7', 'c']]
def INDEX_TO_HAND.p13 : List (List Char) := [
  ['9', 's', '6', 'h'],
  ['9', 's', '6', 'c'],
  ['9', 's', '6', 'd'],
  ['9', 'h', '6', 's'],
  ['9', 'h', '6', 'c'],
  ['9', 'h', '6', 'd'],
  ['9', 'c', '6', 's'],
  ['9', 'c', '6', 'h'],
  ['9', 'c', '6', 'd'],
  ['9', 'd', '6', 's'],
  ['9', 'd', '6', 'h'],
  ['9', 'd', '6', 'c'],
  ['9', 's', '5', 'h'],
  ['9', 's', '5', 'c'],
  ['9', 's', '5', 'd'],
  ['9', 'h', '5', 's'],
  ['9', 'h', '5', 'c'],
  ['9', 'h', '5', 'd'],
  ['9', 'c', '5', 's'],
  ['9', 'c', '5', 'h'],
  ['9', 'c', '5', 'd'],
  ['9', 'd', '5', 's'],
  ['9', 'd', '5', 'h'],
  ['9', 'd', '5', 'c'],
  ['9', 's', '4', 'h'],
  ['9', 's', '4', 'c'],
  ['9', 's', '4', 'd'],
  ['9', 'h', '4', 's'],
  ['9', 'h', '4', 'c'],
  ['9', 'h', '4', 'd'],
  ['9', 'c', '4', 's'],
  ['9', 'c', '4', 'h'],
  ['9', 'c', '4', 'd'],
  ['9', 'd', '4', 's'],
  ['9', 'd', '4', 'h'],
  ['9', 'd', '4', 'c'],
  ['9', 's', '3', 'h'],
  ['9', 's', '3', 'c'],
  ['9', 's', '3', 'd'],
  ['9', 'h', '3', 's'],
  ['9', 'h', '3', 'c'],
  ['9', 'h', '3', 'd'],
  ['9', 'c', '3', 's'],
  ['9', 'c', '3', 'h'],
  ['9', 'c', '3', 'd'],
  ['9', 'd', '3', 's'],
  ['9', 'd', '3', 'h'],
  ['9', 'd', '3', 'c'],
  ['9', 's', '2', 'h'],
  ['9', 's', '2', 'c'],
  ['9', 's', '2', 'd'],
  ['9', 'h', '2', 's'],
  ['9', 'h', '2', 'c'],
  ['9', 'h', '2', 'd'],
  ['9', 'c', '2', 's'],
  ['9', 'c', '2', 'h'],
  ['9', 'c', '2', 'd'],
  ['9', 'd', '2', 's'],
  ['9', 'd', '2', 'h'],
  ['9', 'd', '2', 'c'],
  ['8', 's', '7', 'h'],
  ['8', 's', '7', 'c'],
  ['8', 's', '7', 'd'],
  ['8', 'h', '7', 's'],
  ['8', 'h', '7', 'c'],
  ['8', 'h', '7', 'd'],
  ['8', 'c', '7', 's'],
  ['8', 'c', '7', 'h'],
  ['8', 'c', '7', 'd'],
  ['8', 'd', '7', 's'],
  ['8', 'd', '7', 'h'],
  ['8', 'd', '7', 'c'],
  ['8', 's', '6', 'h'],
  ['8', 's', '6', 'c'],
  ['8', 's', '6', 'd'],
  ['8', 'h', '6', 's'],
  ['8', 'h', '6', 'c'],
  ['8', 'h', '6', 'd']]
def INDEX_TO_HAND.p14 : List (List Char) := [
  ['8', 'c', '6', 's'],
  ['8', 'c', '6', 'h'],
  ['8', 'c', '6', 'd'],
  ['8', 'd', '6', 's'],
  ['8', 'd', '6', 'h'],
  ['8', 'd', '6', 'c'],
  ['8', 's', '5', 'h'],
  ['8', 's', '5', 'c'],
  ['8', 's', '5', 'd'],
  ['8', 'h', '5', 's'],
  ['8', 'h', '5', 'c'],
  ['8', 'h', '5', 'd'],
  ['8', 'c', '5', 's'],
  ['8', 'c', '5', 'h'],
  ['8', 'c', '5', 'd'],
  ['8', 'd', '5', 's'],
  ['8', 'd', '5', 'h'],
  ['8', 'd', '5', 'c'],
  ['8', 's', '4', 'h'],
  ['8', 's', '4', 'c'],
  ['8', 's', '4', 'd'],
  ['8', 'h', '4', 's'],
  ['8', 'h', '4', 'c'],
  ['8', 'h', '4', 'd'],
  ['8', 'c', '4', 's'],
  ['8', 'c', '4', 'h'],
  ['8', 'c', '4', 'd'],
  ['8', 'd', '4', 's'],
  ['8', 'd', '4', 'h'],
  ['8', 'd', '4', 'c'],
  ['8', 's', '3', 'h'],
  ['8', 's', '3', 'c'],
  ['8', 's', '3', 'd'],
  ['8', 'h', '3', 's'],
  ['8', 'h', '3', 'c'],
  ['8', 'h', '3', 'd'],
  ['8', 'c', '3', 's'],
  ['8', 'c', '3', 'h'],
  ['8', 'c', '3', 'd'],
  ['8', 'd', '3', 's'],
  ['8', 'd', '3', 'h'],
  ['8', 'd', '3', 'c'],
  ['8', 's', '2', 'h'],
  ['8', 's', '2', 'c'],
  ['8', 's', '2', 'd'],
  ['8', 'h', '2', 's'],
  ['8', 'h', '2', 'c'],
  ['8', 'h', '2', 'd'],
  ['8', 'c', '2', 's'],
  ['8', 'c', '2', 'h'],
  ['8', 'c', '2', 'd'],
  ['8', 'd', '2', 's'],
  ['8', 'd', '2', 'h'],
  ['8', 'd', '2', 'c'],
  ['7', 's', '6', 'h'],
  ['7', 's', '6', 'c'],
  ['7', 's', '6', 'd'],
  ['7', 'h', '6', 's'],
  ['7', 'h', '6', 'c'],
  ['7', 'h', '6', 'd'],
  ['7', 'c', '6', 's'],
  ['7', 'c', '6', 'h'],
  ['7', 'c', '6', 'd'],
  ['7', 'd', '6', 's'],
  ['7', 'd', '6', 'h'],
  ['7', 'd', '6', 'c'],
  ['7', 's', '5', 'h'],
  ['7', 's', '5', 'c'],
  ['7', 's', '5', 'd'],
  ['7', 'h', '5', 's'],
  ['7', 'h', '5', 'c'],
  ['7', 'h', '5', 'd'],
  ['7', 'c', '5', 's'],
  ['7', 'c', '5', 'h'],
  ['7', 'c', '5', 'd'],
  ['7', 'd', '5', 's'],
  ['7', 'd', '5', 'h'],
  ['7', 'd', '5', 'c']]
def INDEX_TO_HAND.p15 : List (List Char) := [
  ['7', 's', '4', 'h'],
  ['7', 's', '4', 'c'],
  ['7', 's', '4', 'd'],
  ['7', 'h', '4', 's'],
  ['7', 'h', '4', 'c'],
  ['7', 'h', '4', 'd'],
  ['7', 'c', '4', 's'],
  ['7', 'c', '4', 'h'],
  ['7', 'c', '4', 'd'],
  ['7', 'd', '4', 's'],
  ['7', 'd', '4', 'h'],
  ['7', 'd', '4', 'c'],
  ['7', 's', '3', 'h'],
  ['7', 's', '3', 'c'],
  ['7', 's', '3', 'd'],
  ['7', 'h', '3', 's'],
  ['7', 'h', '3', 'c'],
  ['7', 'h', '3', 'd'],
  ['7', 'c', '3', 's'],
  ['7', 'c', '3', 'h'],
  ['7', 'c', '3', 'd'],
  ['7', 'd', '3', 's'],
  ['7', 'd', '3', 'h'],
  ['7', 'd', '3', 'c'],
  ['7', 's', '2', 'h'],
  ['7', 's', '2', 'c'],
  ['7', 's', '2', 'd'],
  ['7', 'h', '2', 's'],
  ['7', 'h', '2', 'c'],
  ['7', 'h', '2', 'd'],
  ['7', 'c', '2', 's'],
  ['7', 'c', '2', 'h'],
  ['7', 'c', '2', 'd'],
  ['7', 'd', '2', 's'],
  ['7', 'd', '2', 'h'],
  ['7', 'd', '2', 'c'],
  ['6', 's', '5', 'h'],
  ['6', 's', '5', 'c'],
  ['6', 's', '5', 'd'],
  ['6', 'h', '5', 's'],
  ['6', 'h', '5', 'c'],
  ['6', 'h', '5', 'd'],
  ['6', 'c', '5', 's'],
  ['6', 'c', '5', 'h'],
  ['6', 'c', '5', 'd'],
  ['6', 'd', '5', 's'],
  ['6', 'd', '5', 'h'],
  ['6', 'd', '5', 'c'],
  ['6', 's', '4', 'h'],
  ['6', 's', '4', 'c'],
  ['6', 's', '4', 'd'],
  ['6', 'h', '4', 's'],
  ['6', 'h', '4', 'c'],
  ['6', 'h', '4', 'd'],
  ['6', 'c', '4', 's'],
  ['6', 'c', '4', 'h'],
  ['6', 'c', '4', 'd'],
  ['6', 'd', '4', 's'],
  ['6', 'd', '4', 'h'],
  ['6', 'd', '4', 'c'],
  ['6', 's', '3', 'h'],
  ['6', 's', '3', 'c'],
  ['6', 's', '3', 'd'],
  ['6', 'h', '3', 's'],
  ['6', 'h', '3', 'c'],
  ['6', 'h', '3', 'd'],
  ['6', 'c', '3', 's'],
  ['6', 'c', '3', 'h'],
  ['6', 'c', '3', 'd'],
  ['6', 'd', '3', 's'],
  ['6', 'd', '3', 'h'],
  ['6', 'd', '3', 'c'],
  ['6', 's', '2', 'h'],
  ['6', 's', '2', 'c'],
  ['6', 's', '2', 'd'],
  ['6', 'h', '2', 's'],
  ['6', 'h', '2', 'c'],
  ['6', 'h', '2', 'd']]
def INDEX_TO_HAND.p16 : List (List Char) := [
  ['6', 'c', '2', 's'],
  ['6', 'c', '2', 'h'],
  ['6', 'c', '2', 'd'],
  ['6', 'd', '2', 's'],
  ['6', 'd', '2', 'h'],
  ['6', 'd', '2', 'c'],
  ['5', 's', '4', 'h'],
  ['5', 's', '4', 'c'],
  ['5', 's', '4', 'd'],
  ['5', 'h', '4', 's'],
  ['5', 'h', '4', 'c'],
  ['5', 'h', '4', 'd'],
  ['5', 'c', '4', 's'],
  ['5', 'c', '4', 'h'],
  ['5', 'c', '4', 'd'],
  ['5', 'd', '4', 's'],
  ['5', 'd', '4', 'h'],
  ['5', 'd', '4', 'c'],
  ['5', 's', '3', 'h'],
  ['5', 's', '3', 'c'],
  ['5', 's', '3', 'd'],
  ['5', 'h', '3', 's'],
  ['5', 'h', '3', 'c'],
  ['5', 'h', '3', 'd'],
  ['5', 'c', '3', 's'],
  ['5', 'c', '3', 'h'],
  ['5', 'c', '3', 'd'],
  ['5', 'd', '3', 's'],
  ['5', 'd', '3', 'h'],
  ['5', 'd', '3', 'c'],
  ['5', 's', '2', 'h'],
  ['5', 's', '2', 'c'],
  ['5', 's', '2', 'd'],
  ['5', 'h', '2', 's'],
  ['5', 'h', '2', 'c'],
  ['5', 'h', '2', 'd'],
  ['5', 'c', '2', 's'],
  ['5', 'c', '2', 'h'],
  ['5', 'c', '2', 'd'],
  ['5', 'd', '2', 's'],
  ['5', 'd', '2', 'h'],
  ['5', 'd', '2', 'c'],
  ['4', 's', '3', 'h'],
  ['4', 's', '3', 'c'],
  ['4', 's', '3', 'd'],
  ['4', 'h', '3', 's'],
  ['4', 'h', '3', 'c'],
  ['4', 'h', '3', 'd'],
  ['4', 'c', '3', 's'],
  ['4', 'c', '3', 'h'],
  ['4', 'c', '3', 'd'],
  ['4', 'd', '3', 's'],
  ['4', 'd', '3', 'h'],
  ['4', 'd', '3', 'c'],
  ['4', 's', '2', 'h'],
  ['4', 's', '2', 'c'],
  ['4', 's', '2', 'd'],
  ['4', 'h', '2', 's'],
  ['4', 'h', '2', 'c'],
  ['4', 'h', '2', 'd'],
  ['4', 'c', '2', 's'],
  ['4', 'c', '2', 'h'],
  ['4', 'c', '2', 'd'],
  ['4', 'd', '2', 's'],
  ['4', 'd', '2', 'h'],
  ['4', 'd', '2', 'c'],
  ['3', 's', '2', 'h'],
  ['3', 's', '2', 'c'],
  ['3', 's', '2', 'd'],
  ['3', 'h', '2', 's'],
  ['3', 'h', '2', 'c'],
  ['3', 'h', '2', 'd'],
  ['3', 'c', '2', 's'],
  ['3', 'c', '2', 'h'],
  ['3', 'c', '2', 'd'],
  ['3', 'd', '2', 's'],
  ['3', 'd', '2', 'h'],
  ['3', 'd', '2', 'c']]
/-- src/string_lookup.rs:3-1330, `INDEX_TO_HAND`, 1326 entries (strings as character lists) -/
def INDEX_TO_HAND : List (List Char) :=
  INDEX_TO_HAND.p0 ++ INDEX_TO_HAND.p1 ++ INDEX_TO_HAND.p2 ++ INDEX_TO_HAND.p3 ++ INDEX_TO_HAND.p4 ++ INDEX_TO_HAND.p5 ++ INDEX_TO_HAND.p6 ++ INDEX_TO_HAND.p7 ++ INDEX_TO_HAND.p8 ++ INDEX_TO_HAND.p9 ++ INDEX_TO_HAND.p10 ++ INDEX_TO_HAND.p11 ++ INDEX_TO_HAND.p12 ++ INDEX_TO_HAND.p13 ++ INDEX_TO_HAND.p14 ++ INDEX_TO_HAND.p15 ++ INDEX_TO_HAND.p16
def INDEX_TO_COMBO.p0 : List (List Char) := [
  ['A', 'A'],
  ['K', 'K'],
  ['Q', 'Q'],
  ['J', 'J'],
  ['T', 'T'],
  ['9', '9'],
  ['8', '8'],
  ['7', '7'],
  ['6', '6'],
  ['5', '5'],
  ['4', '4'],
  ['3', '3'],
  ['2', '2'],
  ['A', 'K', 's'],
  ['A', 'Q', 's'],
  ['A', 'J', 's'],
  ['A', 'T', 's'],
  ['A', '9', 's'],
  ['A', '8', 's'],
  ['A', '7', 's'],
  ['A', '6', 's'],
  ['A', '5', 's'],
  ['A', '4', 's'],
  ['A', '3', 's'],
  ['A', '2', 's'],
  ['K', 'Q', 's'],
  ['K', 'J', 's'],
  ['K', 'T', 's'],
  ['K', '9', 's'],
  ['K', '8', 's'],
  ['K', '7', 's'],
  ['K', '6', 's'],
  ['K', '5', 's'],
  ['K', '4', 's'],
  ['K', '3', 's'],
  ['K', '2', 's'],
  ['Q', 'J', 's'],
  ['Q', 'T', 's'],
  ['Q', '9', 's'],
  ['Q', '8', 's'],
  ['Q', '7', 's'],
  ['Q', '6', 's'],
  ['Q', '5', 's'],
  ['Q', '4', 's'],
  ['Q', '3', 's'],
  ['Q', '2', 's'],
  ['J', 'T', 's'],
  ['J', '9', 's'],
  ['J', '8', 's'],
  ['J', '7', 's'],
  ['J', '6', 's'],
  ['J', '5', 's'],
  ['J', '4', 's'],
  ['J', '3', 's'],
  ['J', '2', 's'],
  ['T', '9', 's'],
  ['T', '8', 's'],
  ['T', '7', 's'],
  ['T', '6', 's'],
  ['T', '5', 's'],
  ['T', '4', 's'],
  ['T', '3', 's'],
  ['T', '2', 's'],
  ['9', '8', 's'],
  ['9', '7', 's'],
  ['9', '6', 's'],
  ['9', '5', 's'],
  ['9', '4', 's'],
  ['9', '3', 's'],
  ['9', '2', 's'],
  ['8', '7', 's'],
  ['8', '6', 's'],
  ['8', '5', 's'],
  ['8', '4', 's'],
  ['8', '3', 's'],
  ['8', '2', 's'],
  ['7', '6', 's'],
  ['7', '5', 's']]
def INDEX_TO_COMBO.p1 : List (List Char) := [
  ['7', '4', 's'],
  ['7', '3', 's'],
  ['7', '2', 's'],
  ['6', '5', 's'],
  ['6', '4', 's'],
  ['6', '3', 's'],
  ['6', '2', 's'],
  ['5', '4', 's'],
  ['5', '3', 's'],
  ['5', '2', 's'],
  ['4', '3', 's'],
  ['4', '2', 's'],
  ['3', '2', 's'],
  ['A', 'K', 'o'],
  ['A', 'Q', 'o'],
  ['A', 'J', 'o'],
  ['A', 'T', 'o'],
  ['A', '9', 'o'],
  ['A', '8', 'o'],
  ['A', '7', 'o'],
  ['A', '6', 'o'],
  ['A', '5', 'o'],
  ['A', '4', 'o'],
  ['A', '3', 'o'],
  ['A', '2', 'o'],
  ['K', 'Q', 'o'],
  ['K', 'J', 'o'],
  ['K', 'T', 'o'],
  ['K', '9', 'o'],
  ['K', '8', 'o'],
  ['K', '7', 'o'],
  ['K', '6', 'o'],
  ['K', '5', 'o'],
  ['K', '4', 'o'],
  ['K', '3', 'o'],
  ['K', '2', 'o'],
  ['Q', 'J', 'o'],
  ['Q', 'T', 'o'],
  ['Q', '9', 'o'],
  ['Q', '8', 'o'],
  ['Q', '7', 'o'],
  ['Q', '6', 'o'],
  ['Q', '5', 'o'],
  ['Q', '4', 'o'],
  ['Q', '3', 'o'],
  ['Q', '2', 'o'],
  ['J', 'T', 'o'],
  ['J', '9', 'o'],
  ['J', '8', 'o'],
  ['J', '7', 'o'],
  ['J', '6', 'o'],
  ['J', '5', 'o'],
  ['J', '4', 'o'],
  ['J', '3', 'o'],
  ['J', '2', 'o'],
  ['T', '9', 'o'],
  ['T', '8', 'o'],
  ['T', '7', 'o'],
  ['T', '6', 'o'],
  ['T', '5', 'o'],
  ['T', '4', 'o'],
  ['T', '3', 'o'],
  ['T', '2', 'o'],
  ['9', '8', 'o'],
  ['9', '7', 'o'],
  ['9', '6', 'o'],
  ['9', '5', 'o'],
  ['9', '4', 'o'],
  ['9', '3', 'o'],
  ['9', '2', 'o'],
  ['8', '7', 'o'],
  ['8', '6', 'o'],
  ['8', '5', 'o'],
  ['8', '4', 'o'],
  ['8', '3', 'o'],
  ['8', '2', 'o'],
  ['7', '6', 'o'],
  ['7', '5', 'o']]
def INDEX_TO_COMBO.p2 : List (List Char) := [
  ['7', '4', 'o'],
  ['7', '3', 'o'],
  ['7', '2', 'o'],
  ['6', '5', 'o'],
  ['6', '4', 'o'],
  ['6', '3', 'o'],
  ['6', '2', 'o'],
  ['5', '4', 'o'],
  ['5', '3', 'o'],
  ['5', '2', 'o'],
  ['4', '3', 'o'],
  ['4', '2', 'o'],
  ['3', '2', 'o']]
/-- src/string_lookup.rs:1340-1510, `INDEX_TO_COMBO`, 169 entries (strings as character lists) -/
def INDEX_TO_COMBO : List (List Char) :=
  INDEX_TO_COMBO.p0 ++ INDEX_TO_COMBO.p1 ++ INDEX_TO_COMBO.p2

end Pokers

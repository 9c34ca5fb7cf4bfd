import Verif.Model.Output
/-!
# Lemmas about computations with output
-/
namespace Ripcalc
namespace Cli

@[simp] theorem pure_eq (a : α) : (pure a : Cli α) = ⟨[], .ok a⟩ := rfl

theorem bind_def (x : Cli α) (f : α → Cli β) : (x >>= f) = Cli.bind x f := rfl

@[simp] theorem mk_ok_bind (o : List OutEv) (a : α) (f : α → Cli β) :
    ((⟨o, .ok a⟩ : Cli α) >>= f) = ⟨o ++ (f a).out, (f a).res⟩ := rfl
@[simp] theorem mk_panic_bind (o : List OutEv) (p : Panic) (f : α → Cli β) :
    ((⟨o, .panic p⟩ : Cli α) >>= f) = ⟨o, .panic p⟩ := rfl
@[simp] theorem mk_diverge_bind (o : List OutEv) (f : α → Cli β) :
    ((⟨o, .diverge⟩ : Cli α) >>= f) = ⟨o, .diverge⟩ := rfl

@[simp] theorem lift_ok_bind (a : α) (f : α → Cli β) : ((liftM (Exec.ok a) : Cli α) >>= f) = f a := rfl
@[simp] theorem lift_panic_bind (p : Panic) (f : α → Cli β) : ((liftM (Exec.panic p : Exec α) : Cli α) >>= f) = ⟨[], .panic p⟩ := rfl
@[simp] theorem lift_diverge_bind (f : α → Cli β) : ((liftM (Exec.diverge : Exec α) : Cli α) >>= f) = ⟨[], .diverge⟩ := rfl

@[simp] theorem emit_bind (e : OutEv) (f : Unit → Cli β) : (Cli.emit e >>= f) = ⟨e :: (f ()).out, (f ()).res⟩ := rfl
@[simp] theorem println_bind (s : Str) (f : Unit → Cli β) :
    (Cli.println s >>= f) = ⟨.out (s ++ ['\n']) :: (f ()).out, (f ()).res⟩ := rfl
@[simp] theorem eprint_bind (m : ErrMsg) (f : Unit → Cli β) : (Cli.eprint m >>= f) = ⟨.err m :: (f ()).out, (f ()).res⟩ := rfl

instance : LawfulMonad Cli := LawfulMonad.mk'
  (id_map := fun ⟨o, r⟩ => by cases r <;> simp [Functor.map, Cli.bind])
  (pure_bind := fun _ _ => by simp)
  (bind_assoc := fun ⟨o, r⟩ f g => by
    cases r with
    | ok a =>
      simp only [mk_ok_bind]
      generalize f a = y
      obtain ⟨o', r'⟩ := y
      cases r' <;> simp
    | panic p => simp
    | diverge => simp)

end Cli
end Ripcalc
